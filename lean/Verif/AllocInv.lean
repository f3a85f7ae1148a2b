import Verif.Alloc
/-
  The invariant of the memory pool and its preservation by every operation.
-/
namespace PV.Alloc

/-- 1 if byte `b` lies in the chunk of level `l` at `o`. -/
def inC (b l o : Nat) : Nat := if o ≤ b ∧ b < o + 2 ^ l then 1 else 0

/-- How many chunks of a level contain `b`. -/
def levelCnt (b k : Nat) (l : List Nat) : Nat := (l.map (inC b k)).sum

/-- How many free chunks contain `b`, the first list being level `k`. -/
def freeCnt (b : Nat) : Nat → List (List Nat) → Nat
  | _, [] => 0
  | k, l :: ls => levelCnt b k l + freeCnt b (k + 1) ls

/-- How many used chunks contain `b`. -/
def usedCnt (b : Nat) (u : List (Nat × Nat)) : Nat := (u.map fun p => inC b p.2 p.1).sum

def Asc (l : List Nat) : Prop := l.Pairwise (· < ·)

theorem mem_sIns {x y : Nat} {l : List Nat} : y ∈ sIns x l ↔ y = x ∨ y ∈ l := by
  induction l with
  | nil => simp [sIns]
  | cons z zs ih =>
    rw [sIns]
    split
    · simp
    · split
      · subst_vars
        simp
      · simp only [List.mem_cons, ih]
        constructor
        · rintro (h | h | h) <;> simp [h]
        · rintro (h | h | h) <;> simp [h]

theorem asc_sIns {x : Nat} {l : List Nat} (h : Asc l) : Asc (sIns x l) := by
  induction l with
  | nil => simp [sIns, Asc]
  | cons z zs ih =>
    have hz : ∀ a ∈ zs, z < a := (List.pairwise_cons.1 h).1
    rw [sIns]
    split
    · refine List.pairwise_cons.2 ⟨?_, h⟩
      intro a ha
      rcases List.mem_cons.1 ha with rfl | ha
      · assumption
      · have := hz a ha
        omega
    · split
      · exact h
      · refine List.pairwise_cons.2 ⟨?_, ih (List.pairwise_cons.1 h).2⟩
        intro a ha
        rcases mem_sIns.1 ha with rfl | ha
        · omega
        · exact hz a ha

theorem levelCnt_sIns {b k x : Nat} {l : List Nat} (h : x ∉ l) :
    levelCnt b k (sIns x l) = levelCnt b k l + inC b k x := by
  induction l with
  | nil => simp [sIns, levelCnt]
  | cons z zs ih =>
    have h1 : x ≠ z := fun e => h (by simp [e])
    have h2 : x ∉ zs := fun e => h (by simp [e])
    rw [sIns]
    split
    · simp only [levelCnt, List.map_cons, List.sum_cons]
      omega
    · have := ih h2
      simp only [levelCnt, List.map_cons, List.sum_cons] at this ⊢
      omega

theorem levelCnt_erase {b k x : Nat} {l : List Nat} (h : x ∈ l) :
    levelCnt b k (l.erase x) + inC b k x = levelCnt b k l := by
  induction l with
  | nil => simp at h
  | cons z zs ih =>
    rw [List.erase_cons]
    by_cases hz : z = x
    · subst hz
      simp [levelCnt, Nat.add_comm]
    · have hx : x ∈ zs := by
        rcases List.mem_cons.1 h with rfl | h
        · exact absurd rfl hz
        · exact h
      have := ih hx
      rw [if_neg (by simpa using hz)]
      simp only [levelCnt, List.map_cons, List.sum_cons] at this ⊢
      omega

theorem levelCnt_pos {b k x : Nat} {l : List Nat} (h : x ∈ l) : inC b k x ≤ levelCnt b k l := by
  have := levelCnt_erase (b := b) (k := k) h
  omega

theorem freeCnt_set {b : Nat} : ∀ {f : List (List Nat)} {k i : Nat} {l l' : List Nat},
    f[i]? = some l →
    freeCnt b k (f.set i l') + levelCnt b (k + i) l = freeCnt b k f + levelCnt b (k + i) l'
  | [], _, _, _, _, h => by simp at h
  | a :: f, k, 0, l, l', h => by
    simp only [List.getElem?_cons_zero, Option.some.injEq] at h
    subst h
    simp only [List.set_cons_zero, freeCnt, Nat.add_zero]
    omega
  | a :: f, k, i + 1, l, l', h => by
    simp only [List.getElem?_cons_succ] at h
    have := freeCnt_set (b := b) (k := k + 1) (l' := l') h
    simp only [List.set_cons_succ, freeCnt]
    rw [show k + (i + 1) = k + 1 + i by omega]
    omega

theorem levelCnt_le_freeCnt {b : Nat} : ∀ {f : List (List Nat)} {k i : Nat} {l : List Nat},
    f[i]? = some l → levelCnt b (k + i) l ≤ freeCnt b k f
  | [], _, _, _, h => by simp at h
  | a :: f, k, 0, l, h => by
    simp only [List.getElem?_cons_zero, Option.some.injEq] at h
    subst h
    simp only [freeCnt, Nat.add_zero]
    omega
  | a :: f, k, i + 1, l, h => by
    simp only [List.getElem?_cons_succ] at h
    have := levelCnt_le_freeCnt (b := b) (k := k + 1) h
    rw [show k + (i + 1) = k + 1 + i by omega]
    simp only [freeCnt]
    omega

theorem inC_self (o l : Nat) : inC o l o = 1 := by
  have : 0 < 2 ^ l := Nat.pow_pos (by omega)
  rw [inC, if_pos ⟨by omega, by omega⟩]

/-- A chunk is the disjoint union of its halves. -/
theorem inC_halves (b l o : Nat) : inC b (l + 1) o = inC b l o + inC b l (o + 2 ^ l) := by
  have h : 2 ^ (l + 1) = 2 ^ l + 2 ^ l := by rw [Nat.pow_succ]; omega
  have : 0 < 2 ^ l := Nat.pow_pos (by omega)
  simp only [inC, h]
  split <;> split <;> split <;> omega

/-- The free lists are well formed: every level ascends and, together with the `extra` chunks,
    they cover each byte below `size` once and no other byte. -/
structure Cover (f : List (List Nat)) (extra : Nat → Nat) (size : Nat) : Prop where
  asc : ∀ (i : Nat) l, f[i]? = some l → Asc l
  cov : ∀ b, freeCnt b 0 f + extra b = if b < size then 1 else 0

namespace Cover

variable {f : List (List Nat)} {extra : Nat → Nat} {size : Nat}

/-- A chunk of a level covers each of its bytes, so these lie in the pool. -/
theorem le_size (h : Cover f extra size) {i o : Nat} {l : List Nat} (hl : f[i]? = some l)
    (ho : o ∈ l) : o + 2 ^ i ≤ size := by
  have hp : 0 < 2 ^ i := Nat.pow_pos (by omega)
  have h1 := levelCnt_pos (b := o + 2 ^ i - 1) (k := i) ho
  have h2 := levelCnt_le_freeCnt (b := o + 2 ^ i - 1) (k := 0) hl
  have h3 := h.cov (o + 2 ^ i - 1)
  rw [Nat.zero_add] at h2
  have h4 : inC (o + 2 ^ i - 1) i o = 1 := by rw [inC, if_pos ⟨by omega, by omega⟩]
  split at h3 <;> omega

/-- The chunk next to go in cannot be there already. -/
theorem not_mem (h : Cover f extra size) {i o : Nat} {l : List Nat} (hl : f[i]? = some l)
    (hx : 0 < extra o) : o ∉ l := by
  intro ho
  have h1 := levelCnt_pos (b := o) (k := i) ho
  have h2 := levelCnt_le_freeCnt (b := o) (k := 0) hl
  have h3 := h.cov o
  rw [Nat.zero_add] at h2
  rw [inC_self] at h1
  split at h3 <;> omega

theorem set_asc (h : Cover f extra size) {i : Nat} {l' : List Nat} (ha : Asc l') :
    ∀ (j : Nat) l, (f.set i l')[j]? = some l → Asc l := by
  intro j l hj
  rw [List.getElem?_set] at hj
  split at hj
  · split at hj
    · simp only [Option.some.injEq] at hj
      exact hj ▸ ha
    · simp at hj
  · exact h.asc j l hj

/-- Take a chunk out of a level. -/
theorem remove (h : Cover f extra size) {i o : Nat} {l : List Nat} (hl : f[i]? = some l)
    (ho : o ∈ l) : Cover (f.set i (l.erase o)) (fun b => extra b + inC b i o) size := by
  refine ⟨h.set_asc ((h.asc i l hl).sublist List.erase_sublist), fun b => ?_⟩
  have h1 := freeCnt_set (b := b) (k := 0) (l' := l.erase o) hl
  have h2 := levelCnt_erase (b := b) (k := i) ho
  have h3 := h.cov b
  rw [Nat.zero_add] at h1
  rw [← h3]
  omega

/-- Put a chunk into a level. -/
theorem insert {i o : Nat} {l : List Nat} (h : Cover f (fun b => extra b + inC b i o) size)
    (hl : f[i]? = some l) : Cover (f.set i (sIns o l)) extra size := by
  have hn : o ∉ l := h.not_mem hl (by rw [inC_self]; omega)
  refine ⟨h.set_asc (asc_sIns (h.asc i l hl)), fun b => ?_⟩
  have h1 := freeCnt_set (b := b) (k := 0) (l' := sIns o l) hl
  have h2 := levelCnt_sIns (b := b) (k := i) hn
  have h3 := h.cov b
  rw [Nat.zero_add] at h1
  rw [← h3]
  omega

theorem congr {e : Nat → Nat} (h : Cover f extra size) (he : ∀ b, extra b = e b) :
    Cover f e size := ⟨h.asc, fun b => by rw [← he b]; exact h.cov b⟩

/-- Two different chunks of one level do not overlap. -/
theorem disjoint (h : Cover f extra size) {i o p : Nat} {l : List Nat} (hl : f[i]? = some l)
    (ho : o ∈ l) (hp : p ∈ l) (hlt : o < p) : o + 2 ^ i ≤ p := by
  have h1 := h.remove hl ho
  have hlen : i < f.length := (List.getElem?_eq_some_iff.1 hl).1
  have h2 := h1.le_size (o := p) (i := i) (l := l.erase o) (by simp [hlen])
    ((List.mem_erase_of_ne (by omega)).2 hp)
  have h3 : ¬ (p < o + 2 ^ i) := by
    intro hc
    have := h1.not_mem (o := p) (i := i) (l := l.erase o) (by simp [hlen])
      (by simp only [inC]; rw [if_pos ⟨by omega, hc⟩]; omega)
    exact this ((List.mem_erase_of_ne (by omega)).2 hp)
  omega

end Cover

theorem modLevel_some {f : List (List Nat)} {i : Nat} {l : List Nat} {g : List Nat → List Nat}
    (h : f[i]? = some l) : modLevel f i g = some (f.set i (g l)) := by
  simp [modLevel, h]

theorem tail_eq_erase {v : Nat} {l : List Nat} : (v :: l).tail = (v :: l).erase v := by simp

/-! ### `_split` -/

theorem splitLoop_ok {extra : Nat → Nat} {size start : Nat} :
    ∀ {d : Nat} {f : List (List Nat)} {l : List Nat}, Cover f extra size →
      f[start + d]? = some l → l ≠ [] →
      ∃ f', splitLoop start d f = some f' ∧ Cover f' extra size ∧ f'.length = f.length ∧
        ∃ l', f'[start]? = some l' ∧ l' ≠ []
  | 0, f, l, h, hl, hne => ⟨f, rfl, h, rfl, l, by simpa using hl, hne⟩
  | d + 1, f, [], h, hl, hne => absurd rfl hne
  | d + 1, f, v :: vs, h, hl, _ => by
    have hlen : start + d + 1 < f.length := (List.getElem?_eq_some_iff.1 hl).1
    have hl' : f[start + d + 1]? = some (v :: vs) := hl
    obtain ⟨ld, hld⟩ : ∃ ld, f[start + d]? = some ld := ⟨f[start + d], by simp⟩
    -- take the chunk out, put its halves back
    have c1 : Cover (f.set (start + d + 1) vs) (fun b => extra b + inC b (start + d + 1) v) size := by
      have := h.remove hl' (o := v) (by simp)
      simpa using this
    have c2 : Cover (f.set (start + d + 1) vs)
        (fun b => (extra b + inC b (start + d) (v + 2 ^ (start + d))) + inC b (start + d) v) size := by
      refine c1.congr fun b => ?_
      rw [inC_halves]
      omega
    have g1 : (f.set (start + d + 1) vs)[start + d]? = some ld := by
      rw [List.getElem?_set_ne (by omega), hld]
    have c3 := c2.insert g1
    have g2 : ((f.set (start + d + 1) vs).set (start + d) (sIns v ld))[start + d]?
        = some (sIns v ld) := by
      rw [List.getElem?_set_self (by simp; omega)]
    have c4 := c3.insert g2
    rw [List.set_set, List.set_comm _ _ (by omega)] at c4
    have gl : ((f.set (start + d) (sIns (v + 2 ^ (start + d)) (sIns v ld))).set (start + d + 1) vs)[start + d]?
        = some (sIns (v + 2 ^ (start + d)) (sIns v ld)) := by
      rw [List.getElem?_set_ne (by omega), List.getElem?_set_self (by omega)]
    obtain ⟨f', e1, e2, e3, e4⟩ := splitLoop_ok (d := d) c4 gl
      (List.ne_nil_of_mem (mem_sIns.2 (Or.inl rfl)))
    refine ⟨f', ?_, e2, by simpa using e3, e4⟩
    rw [splitLoop, hl']
    simp only
    rw [modLevel_some hld]
    simp only [Option.bind_eq_bind, Option.bind_some]
    rw [modLevel_some (l := v :: vs) (by rw [List.getElem?_set_ne (by omega), hl'])]
    simpa using e1

/-- What the free lists look like after `_split` went down `d` levels from the chunk `v`. -/
theorem splitLoop_exact {start v : Nat} {vs : List Nat} :
    ∀ {d : Nat} {f : List (List Nat)}, f[start + d]? = some (v :: vs) →
      (∀ j, j < d → f[start + j]? = some []) →
      ∃ f', splitLoop start d f = some f' ∧ f'.length = f.length ∧
        ∀ i : Nat, f'[i]? =
          if d = 0 then f[i]?
          else if i = start then some [v, v + 2 ^ start]
          else if start < i ∧ i < start + d then some [v + 2 ^ i]
          else if i = start + d then some vs
          else f[i]?
  | 0, f, _, _ => ⟨f, rfl, rfl, fun i => by simp⟩
  | d + 1, f, hl, he => by
    have hlen : start + d + 1 < f.length := (List.getElem?_eq_some_iff.1 hl).1
    have hl' : f[start + d + 1]? = some (v :: vs) := hl
    have hld : f[start + d]? = some [] := he d (by omega)
    have hp : 0 < 2 ^ (start + d) := Nat.pow_pos (by omega)
    have hins : sIns (v + 2 ^ (start + d)) (sIns v []) = [v, v + 2 ^ (start + d)] := by
      simp [sIns]
    generalize hg : (f.set (start + d) [v, v + 2 ^ (start + d)]).set (start + d + 1) vs = g
    have gg : ∀ i : Nat, g[i]? = if i = start + d then some [v, v + 2 ^ (start + d)]
        else if i = start + d + 1 then some vs else f[i]? := by
      intro i
      rw [← hg]
      by_cases h1 : i = start + d
      · subst h1
        rw [if_pos rfl, List.getElem?_set_ne (by omega), List.getElem?_set_self (by omega)]
      · rw [if_neg h1]
        by_cases h2 : i = start + d + 1
        · subst h2
          rw [if_pos rfl, List.getElem?_set_self (by simpa using hlen)]
        · rw [if_neg h2, List.getElem?_set_ne (by omega), List.getElem?_set_ne (by omega)]
    obtain ⟨f', e1, e2, e3⟩ := splitLoop_exact (start := start) (v := v) (vs := [v + 2 ^ (start + d)])
      (d := d) (f := g) (by rw [gg, if_pos rfl])
      (fun j hj => by rw [gg, if_neg (by omega), if_neg (by omega)]; exact he j (by omega))
    refine ⟨f', ?_, by rw [e2, ← hg]; simp, fun i => ?_⟩
    · rw [splitLoop, hl']
      simp only
      rw [modLevel_some hld]
      simp only [Option.bind_eq_bind, Option.bind_some]
      rw [modLevel_some (l := v :: vs) (by rw [List.getElem?_set_ne (by omega), hl'])]
      simp only [Option.bind_some, hins, List.tail_cons]
      rw [hg]
      exact e1
    · rw [e3 i, gg i, if_neg (by omega : ¬ d + 1 = 0)]
      by_cases hd : d = 0
      · subst hd
        simp only [if_true, Nat.add_zero]
        by_cases h1 : i = start
        · simp [h1]
        · rw [if_neg h1, if_neg h1, if_neg (by omega : ¬ (start < i ∧ i < start + (0 + 1)))]
      · rw [if_neg hd]
        by_cases h1 : i = start
        · simp [h1]
        · rw [if_neg h1, if_neg h1]
          by_cases h2 : i = start + d
          · subst h2
            rw [if_neg (by omega), if_pos rfl, if_pos ⟨by omega, by omega⟩]
          · by_cases h3 : start < i ∧ i < start + d
            · rw [if_pos h3, if_pos ⟨by omega, by omega⟩]
            · rw [if_neg h3, if_neg h2, if_neg h2, if_neg (by omega : ¬ (start < i ∧ i < start + (d + 1)))]
              rfl

theorem findLevel_some {f : List (List Nat)} {start s : Nat} (hf : findLevel f start = some s) :
    start ≤ s ∧ s < f.length ∧ (∃ v vs, f[s]? = some (v :: vs)) ∧
      ∀ j, start ≤ j → j < s → f[j]? = some [] := by
  have h1 := List.find?_some hf
  have h2 := List.mem_of_find?_eq_some hf
  rw [List.mem_range'_1] at h2
  have hs : s < f.length := by omega
  refine ⟨h2.1, hs, ?_, ?_⟩
  · rw [show f[s]? = some f[s] by simp] at h1 ⊢
    cases hfs : f[s] with
    | nil => simp [hfs] at h1
    | cons v vs => exact ⟨v, vs, rfl⟩
  · intro j hj hjs
    have hjl : j < f.length := by omega
    rw [show f[j]? = some f[j] by simp]
    rw [findLevel, List.find?_range'_eq_some] at hf
    have := hf.2.2 j hj hjs
    rw [show f[j]? = some f[j] by simp] at this
    simpa using this

theorem split_ok {extra : Nat → Nat} {size start : Nat} {f : List (List Nat)}
    (h : Cover f extra size) :
    (split f start = some (false, f) ∧ ∀ (i : Nat) l, start ≤ i → f[i]? = some l → l = []) ∨
    (∃ f' l', split f start = some (true, f') ∧ Cover f' extra size ∧ f'.length = f.length ∧
        f'[start]? = some l' ∧ l' ≠ []) := by
  rw [split]
  cases hf : findLevel f start with
  | none =>
    refine Or.inl ⟨rfl, fun i l hi hl => ?_⟩
    rw [findLevel, List.find?_eq_none] at hf
    have hlen : i < f.length := (List.getElem?_eq_some_iff.1 hl).1
    have := hf i (by simp [List.mem_range'_1]; omega)
    rw [hl] at this
    simpa using this
  | some s =>
    have h1 := List.find?_some hf
    have h2 := List.mem_of_find?_eq_some hf
    rw [List.mem_range'_1] at h2
    obtain ⟨l, hl⟩ : ∃ l, f[s]? = some l := ⟨f[s]'(by omega), by simp⟩
    rw [hl] at h1
    obtain ⟨f', e1, e2, e3, l', e4, e5⟩ := splitLoop_ok (start := start) (d := s - start) (l := l) h
      (by rw [show start + (s - start) = s by omega]; exact hl) (by simpa using h1)
    exact Or.inr ⟨f', l', by simp [e1], e2, e3, e4, e5⟩

/-! ### `_merge` -/

theorem sNext_some {x n : Nat} {l : List Nat} (h : sNext x l = some n) : n ∈ l ∧ x < n :=
  ⟨List.mem_of_find?_eq_some h, by simpa using List.find?_some h⟩

theorem sPrev_some {x n : Nat} {l : List Nat} (h : sPrev x l = some n) : n ∈ l ∧ n < x := by
  have := List.mem_of_getLast? h
  simpa using this

/-- Replace two adjacent chunks of a level by one of the next level. -/
theorem merge_pair {extra : Nat → Nat} {size level o : Nat} {f : List (List Nat)} {l : List Nat}
    (h : Cover f extra size) (hl : f[level]? = some l) (ho : o ∈ l) (hn : o + 2 ^ level ∈ l)
    (hsz : size < 2 ^ f.length) :
    ∃ lu, f[level + 1]? = some lu ∧
      Cover ((f.set (level + 1) (sIns o lu)).set level ((l.erase o).erase (o + 2 ^ level))) extra size := by
  have hp : 0 < 2 ^ level := Nat.pow_pos (by omega)
  have hlen : level < f.length := (List.getElem?_eq_some_iff.1 hl).1
  have hle := h.le_size hl hn
  have hup : level + 1 < f.length := by
    by_cases hc : level + 1 < f.length
    · exact hc
    · have he : f.length = level + 1 := by omega
      rw [he, Nat.pow_succ] at hsz
      omega
  obtain ⟨lu, hlu⟩ : ∃ lu, f[level + 1]? = some lu := ⟨f[level + 1], by simp⟩
  refine ⟨lu, hlu, ?_⟩
  have c1 := h.remove hl ho
  have g1 : (f.set level (l.erase o))[level]? = some (l.erase o) := by
    rw [List.getElem?_set_self hlen]
  have c2 := c1.remove g1 ((List.mem_erase_of_ne (by omega)).2 hn)
  rw [List.set_set] at c2
  have c3 := c2.congr (e := fun b => extra b + inC b (level + 1) o) (fun b => by
    rw [inC_halves]; omega)
  have c4 := c3.insert (l := lu) (by rw [List.getElem?_set_ne (by omega), hlu])
  rwa [List.set_comm _ _ (by omega)] at c4

theorem sNext_least {x y : Nat} {l : List Nat} (ha : Asc l) (hy : y ∈ l) (hxy : x < y) :
    ∃ n, sNext x l = some n ∧ n ≤ y := by
  induction l with
  | nil => simp at hy
  | cons z zs ih =>
    have hz := List.pairwise_cons.1 ha
    by_cases h : x < z
    · refine ⟨z, by simp [sNext, h], ?_⟩
      rcases List.mem_cons.1 hy with rfl | hy
      · omega
      · have := hz.1 y hy
        omega
    · rcases List.mem_cons.1 hy with rfl | hy
      · exact absurd hxy h
      · obtain ⟨n, h1, h2⟩ := ih hz.2 hy
        exact ⟨n, by simpa [sNext, h] using h1, h2⟩

theorem sPrev_greatest {x y : Nat} {l : List Nat} (ha : Asc l) (hy : y ∈ l) (hxy : y < x) :
    ∃ n, sPrev x l = some n ∧ y ≤ n := by
  have hm : y ∈ l.filter fun y => decide (y < x) := List.mem_filter.2 ⟨hy, by simpa using hxy⟩
  have hs : Asc (l.filter fun y => decide (y < x)) := ha.sublist List.filter_sublist
  rw [sPrev]
  generalize l.filter (fun y => decide (y < x)) = l' at hm hs
  have hne : l' ≠ [] := List.ne_nil_of_mem hm
  refine ⟨l'.getLast hne, List.getLast?_eq_some_getLast hne, ?_⟩
  have hd := List.dropLast_concat_getLast hne
  rw [← hd] at hm hs
  rcases List.mem_append.1 hm with h | h
  · have := (List.pairwise_append.1 hs).2.2 y h _ (List.mem_singleton.2 rfl)
    omega
  · simp at h
    omega

/-- No two free chunks of one level touch. -/
def NoAdj (f : List (List Nat)) : Prop :=
  ∀ (i : Nat) l, f[i]? = some l → ∀ o ∈ l, o + 2 ^ i ∉ l

/-- The same except for the chunk `o` of level `level`. -/
def AdjAt (f : List (List Nat)) (level o : Nat) : Prop :=
  ∀ (i : Nat) l, f[i]? = some l → ∀ p ∈ l, p + 2 ^ i ∈ l → i = level ∧ (p = o ∨ p + 2 ^ i = o)

theorem NoAdj.insert {f : List (List Nat)} {i o : Nat} {l : List Nat} (h : NoAdj f)
    (hl : f[i]? = some l) : AdjAt (f.set i (sIns o l)) i o := by
  intro j lj hj p hp hp2
  have hlen : i < f.length := (List.getElem?_eq_some_iff.1 hl).1
  by_cases hji : j = i
  · subst hji
    rw [List.getElem?_set_self hlen, Option.some.injEq] at hj
    subst hj
    refine ⟨rfl, ?_⟩
    rcases mem_sIns.1 hp with h1 | h1
    · exact Or.inl h1
    · rcases mem_sIns.1 hp2 with h2 | h2
      · exact Or.inr h2
      · exact absurd h2 (h _ _ hl _ h1)
  · rw [List.getElem?_set_ne (Ne.symm hji)] at hj
    exact absurd hp2 (h _ _ hj _ hp)

/-- Moving a touching pair up leaves only the new chunk possibly touching another. -/
theorem adj_merge {f : List (List Nat)} {level o q : Nat} {l lu : List Nat}
    (h : AdjAt f level q) (hq : q = o ∨ q = o + 2 ^ level) (hl : f[level]? = some l)
    (hlu : f[level + 1]? = some lu) (ha : Asc l) :
    AdjAt ((f.set (level + 1) (sIns o lu)).set level ((l.erase o).erase (o + 2 ^ level))) (level + 1) o := by
  have hp0 : 0 < 2 ^ level := Nat.pow_pos (by omega)
  have hlen : level < f.length := (List.getElem?_eq_some_iff.1 hl).1
  have hlen' : level + 1 < f.length := (List.getElem?_eq_some_iff.1 hlu).1
  have hnd : l.Nodup := ha.imp (fun h => Nat.ne_of_lt h)
  intro j lj hj p hp hp2
  by_cases hj0 : j = level
  · subst hj0
    rw [List.getElem?_set_self (by simpa using hlen), Option.some.injEq] at hj
    subst hj
    have k1 := hnd.erase o
    rw [k1.mem_erase_iff, hnd.mem_erase_iff] at hp hp2
    have := h _ _ hl _ hp.2.2 hp2.2.2
    omega
  · rw [List.getElem?_set_ne (Ne.symm hj0)] at hj
    by_cases hj1 : j = level + 1
    · subst hj1
      rw [List.getElem?_set_self hlen', Option.some.injEq] at hj
      subst hj
      refine ⟨rfl, ?_⟩
      rcases mem_sIns.1 hp with h1 | h1
      · exact Or.inl h1
      · rcases mem_sIns.1 hp2 with h2 | h2
        · exact Or.inr h2
        · have := h _ _ hlu _ h1 h2
          omega
    · rw [List.getElem?_set_ne (Ne.symm hj1)] at hj
      have := h _ _ hj _ hp hp2
      omega

theorem touching_some {level o a b : Nat} {l : List Nat} (h : touching level o l = some (a, b))
    (ho : o ∈ l) : a ∈ l ∧ b ∈ l ∧ b = a + 2 ^ level ∧ (o = a ∨ o = a + 2 ^ level) := by
  have hp : touchPrev level o l = some (a, b) →
      a ∈ l ∧ b ∈ l ∧ b = a + 2 ^ level ∧ (o = a ∨ o = a + 2 ^ level) := by
    intro h
    rw [touchPrev] at h
    split at h
    · next p hp =>
      split at h
      · obtain ⟨h1, h2⟩ := sPrev_some hp
        simp only [Option.some.injEq, Prod.mk.injEq] at h
        obtain ⟨rfl, rfl⟩ := h
        exact ⟨h1, ho, by omega, by omega⟩
      · simp at h
    · simp at h
  rw [touching] at h
  split at h
  · next n hn =>
    split at h
    · obtain ⟨h1, h2⟩ := sNext_some hn
      simp only [Option.some.injEq, Prod.mk.injEq] at h
      obtain ⟨rfl, rfl⟩ := h
      exact ⟨ho, h1, by omega, by omega⟩
    · exact hp h
  · exact hp h

theorem touching_none {extra : Nat → Nat} {size level o : Nat} {f : List (List Nat)} {l : List Nat}
    (hc : Cover f extra size) (hl : f[level]? = some l) (ho : o ∈ l)
    (h : touching level o l = none) : o + 2 ^ level ∉ l ∧ ∀ p ∈ l, p + 2 ^ level ≠ o := by
  have hp0 : 0 < 2 ^ level := Nat.pow_pos (by omega)
  have hasc := hc.asc _ _ hl
  have hprev : touchPrev level o l = none → ∀ p ∈ l, p + 2 ^ level ≠ o := by
    intro h p hp he
    obtain ⟨n, hn, hn2⟩ := sPrev_greatest (x := o) hasc hp (by omega)
    rw [touchPrev, hn] at h
    obtain ⟨h1, h2⟩ := sPrev_some hn
    have := hc.disjoint hl h1 ho h2
    simp only at h
    rw [if_pos (by omega)] at h
    simp at h
  rw [touching] at h
  constructor
  · intro hn
    obtain ⟨n, hs, hn2⟩ := sNext_least (x := o) hasc hn (by omega)
    obtain ⟨h1, h2⟩ := sNext_some hs
    have := hc.disjoint hl ho h1 h2
    rw [hs] at h
    simp only at h
    rw [if_pos (by omega)] at h
    simp at h
  · split at h
    · split at h
      · simp at h
      · exact hprev h
    · exact hprev h

theorem mergeLoop_ok {extra : Nat → Nat} {size : Nat} :
    ∀ {k level o : Nat} {f : List (List Nat)} {l : List Nat}, Cover f extra size →
      size < 2 ^ f.length → k = f.length - level → f[level]? = some l → o ∈ l →
      ∃ f', mergeLoop k level o f = some f' ∧ Cover f' extra size ∧ f'.length = f.length ∧
        (AdjAt f level o → NoAdj f')
  | 0, level, _, f, _, h, _, hk, hl, _ => by
    have hlen : level < f.length := (List.getElem?_eq_some_iff.1 hl).1
    omega
  | k + 1, level, o, f, l, h, hsz, hk, hl, ho => by
    have hlen : level < f.length := (List.getElem?_eq_some_iff.1 hl).1
    have hasc := h.asc _ _ hl
    rw [mergeLoop, hl]
    simp only
    rw [if_pos ho]
    cases ht : touching level o l with
    | none =>
      obtain ⟨hnn, hpp⟩ := touching_none h hl ho ht
      refine ⟨f, rfl, h, rfl, ?_⟩
      intro hadj i li hi p hp hp2
      obtain ⟨rfl, h1 | h1⟩ := hadj _ _ hi _ hp hp2
      · subst h1
        rw [hl, Option.some.injEq] at hi
        exact hnn (hi ▸ hp2)
      · rw [hl, Option.some.injEq] at hi
        exact hpp p (hi ▸ hp) h1
    | some ab =>
      obtain ⟨a, b⟩ := ab
      obtain ⟨ha, hb, rfl, hq⟩ := touching_some ht ho
      simp only
      obtain ⟨lu, hlu, c⟩ := merge_pair h hl ha hb hsz
      rw [modLevel_some hlu]
      simp only [Option.bind_eq_bind, Option.bind_some]
      rw [modLevel_some (l := l) (by rw [List.getElem?_set_ne (by omega), hl])]
      simp only [Option.bind_some]
      have hup : level + 1 < f.length := (List.getElem?_eq_some_iff.1 hlu).1
      obtain ⟨f', e1, e2, e3, e4⟩ := mergeLoop_ok (k := k) (level := level + 1) (o := a) c
        (by simpa using hsz) (by simp; omega)
        (l := sIns a lu) (by rw [List.getElem?_set_ne (by omega), List.getElem?_set_self hup])
        (mem_sIns.2 (Or.inl rfl))
      exact ⟨f', e1, e2, by simpa using e3, fun hadj => e4 (adj_merge hadj hq hl hlu hasc)⟩

/-! ### Levels and `reserve` -/

theorem levelLoop_ok {n : Nat} (hn : n ≤ 9223372036854775808) :
    ∀ {fuel lv : Nat}, lv + fuel = 65 → lv ≤ 63 → (lv = 0 ∨ 2 ^ (lv - 1) < n) →
      ∃ r, levelLoop n fuel (2 ^ lv) lv = some r ∧ n ≤ 2 ^ r ∧ (r = 0 ∨ 2 ^ (r - 1) < n)
  | 0, lv, h, h2, _ => by omega
  | fuel + 1, lv, h, h2, h3 => by
    rw [levelLoop]
    split
    · next hlt =>
      have hlv : lv < 63 := by
        rcases Nat.lt_or_ge lv 63 with h' | h'
        · exact h'
        · have : lv = 63 := by omega
          subst this
          omega
      have hpow : 2 ^ (lv + 1) ≤ 2 ^ 63 := Nat.pow_le_pow_right (by omega) (by omega)
      have he : 2 ^ lv * 2 % 18446744073709551616 = 2 ^ (lv + 1) := by
        rw [← Nat.pow_succ, Nat.mod_eq_of_lt]
        have : (2:Nat) ^ 63 < 18446744073709551616 := by decide
        omega
      rw [he]
      exact levelLoop_ok hn (by omega) (by omega) (Or.inr (by simpa using hlt))
    · next hlt => exact ⟨lv, rfl, by omega, h3⟩

theorem getLevel_ok {n : Nat} (hn : n ≤ 9223372036854775808) :
    ∃ r, getLevel n = some r ∧ n ≤ 2 ^ r ∧ (r = 0 ∨ 2 ^ (r - 1) < n) :=
  levelLoop_ok hn (fuel := 65) (lv := 0) rfl (by omega) (Or.inl rfl)

theorem freeCnt_replicate (b : Nat) : ∀ k n, freeCnt b k (List.replicate n []) = 0
  | _, 0 => rfl
  | k, n + 1 => by
    rw [List.replicate_succ, freeCnt, freeCnt_replicate b (k + 1) n]
    rfl

/-- The largest power of two that is not larger than `size`. -/
theorem topLevel_ok {size : Nat} (h0 : size ≠ 0) (hn : size ≤ 9223372036854775808) :
    ∃ lv, getLevel size = some lv ∧
      2 ^ (if 2 ^ lv > size then lv - 1 else lv) ≤ size ∧
      size < 2 ^ ((if 2 ^ lv > size then lv - 1 else lv) + 1) := by
  obtain ⟨lv, e1, e2, e3⟩ := getLevel_ok hn
  refine ⟨lv, e1, ?_⟩
  split
  · next hgt =>
    rcases e3 with rfl | e3
    · simp at hgt
      omega
    · have : lv ≠ 0 := by
        rintro rfl
        simp at hgt e3
        omega
      rw [show lv - 1 + 1 = lv by omega]
      omega
  · next hgt =>
    rw [Nat.pow_succ]
    omega

theorem reserveLoop_ok {total : Nat} (ht : total ≤ 9223372036854775808) :
    ∀ {fuel size done : Nat} {f : List (List Nat)}, size < fuel → done + size = total →
      0 < done → Cover f (fun b => if done ≤ b ∧ b < total then 1 else 0) total → size < 2 ^ f.length →
      ∃ f', reserveLoop fuel size done f = some f' ∧ Cover f' (fun _ => 0) total ∧ f'.length = f.length
  | 0, _, _, _, h, _, _, _, _ => absurd h (by omega)
  | fuel + 1, size, done, f, h, hs, hd, hc, hl => by
    rw [reserveLoop]
    split
    · next h0 =>
      refine ⟨f, rfl, hc.congr fun b => ?_, rfl⟩
      rw [if_neg (by omega)]
    · next h0 =>
      obtain ⟨lv, e1, e2, e3⟩ := topLevel_ok h0 (by omega)
      generalize hlv : (if 2 ^ lv > size then lv - 1 else lv) = lv' at e2 e3
      have hlt : lv' < f.length := by
        by_cases hcc : lv' < f.length
        · exact hcc
        · have := Nat.pow_le_pow_right (n := 2) (by omega) (Nat.le_of_not_lt hcc)
          omega
      have hpos : 0 < 2 ^ lv' := Nat.pow_pos (by omega)
      obtain ⟨l, hl'⟩ : ∃ l, f[lv']? = some l := ⟨f[lv'], by simp⟩
      have c2 := (hc.congr (e := fun b => (if done + 2 ^ lv' ≤ b ∧ b < total then 1 else 0) + inC b lv' done)
        (fun b => by
          simp only [inC]
          split <;> split <;> split <;> omega)).insert hl'
      obtain ⟨f', r1, r2, r3⟩ := reserveLoop_ok ht (fuel := fuel) (size := size - 2 ^ lv')
        (done := done + 2 ^ lv') (by omega) (by omega) (by omega) c2 (by simp; omega)
      refine ⟨f', ?_, r2, by simpa using r3⟩
      simp only [e1, Option.bind_eq_bind, Option.bind_some, hlv]
      rw [if_neg (by omega), modLevel_some hl']
      exact r1

theorem reserve_lists {total : Nat} (h0 : total ≠ 0) (ht : total ≤ 9223372036854775808) :
    ∃ f, reserveLoop (total + 1) total 0 [] = some f ∧ Cover f (fun _ => 0) total ∧
      total < 2 ^ f.length := by
  obtain ⟨lv, e1, e2, e3⟩ := topLevel_ok h0 ht
  generalize hlv : (if 2 ^ lv > total then lv - 1 else lv) = lv' at e2 e3
  have hpos : 0 < 2 ^ lv' := Nat.pow_pos (by omega)
  have c1 : Cover (List.replicate (lv' + 1) []) (fun b => if b < total then 1 else 0) total := by
    refine ⟨fun i l hl => ?_, fun b => by rw [freeCnt_replicate]; omega⟩
    have := List.mem_of_getElem? hl
    rw [List.mem_replicate] at this
    rw [this.2]
    exact List.Pairwise.nil
  have hl' : (List.replicate (lv' + 1) ([] : List Nat))[lv']? = some [] := by simp
  have c2 := (c1.congr (e := fun b => (if 2 ^ lv' ≤ b ∧ b < total then 1 else 0) + inC b lv' 0)
    (fun b => by
      simp only [inC]
      split <;> split <;> split <;> omega)).insert hl'
  obtain ⟨f', r1, r2, r3⟩ := reserveLoop_ok ht (fuel := total) (size := total - 2 ^ lv')
    (done := 2 ^ lv') (by omega) (by omega) (by omega) c2 (by simp; omega)
  refine ⟨f', ?_, r2, by rw [r3]; simp; omega⟩
  rw [reserveLoop, if_neg h0]
  simp only [e1, Option.bind_eq_bind, Option.bind_some, hlv]
  rw [if_pos trivial, modLevel_some hl', Nat.zero_add]
  exact r1

/-! ### The invariant -/

/-- The free and the used chunks partition the pool. -/
structure Inv (s : State) : Prop where
  cover : Cover s.free (fun b => usedCnt b s.used) s.size
  top : s.size < 2 ^ s.free.length
  small : s.size ≤ 9223372036854775808
  level : ∀ p ∈ s.used, p.2 < s.free.length

theorem inv_init : Inv State.init := by
  refine ⟨⟨by simp [State.init], by simp [State.init, freeCnt, usedCnt]⟩, by simp [State.init],
    by simp [State.init], by simp [State.init]⟩

theorem usedCnt_cons (b o l : Nat) (u : List (Nat × Nat)) :
    usedCnt b ((o, l) :: u) = inC b l o + usedCnt b u := by simp [usedCnt]

theorem usedCnt_pos {b : Nat} {p : Nat × Nat} {u : List (Nat × Nat)} (h : p ∈ u) :
    inC b p.2 p.1 ≤ usedCnt b u := by
  induction u with
  | nil => simp at h
  | cons q u ih =>
    rw [show q = (q.1, q.2) from rfl, usedCnt_cons]
    rcases List.mem_cons.1 h with rfl | h
    · omega
    · have := ih h
      omega

theorem usedCnt_filter {o l b : Nat} {u : List (Nat × Nat)} (hn : (u.map Prod.fst).Nodup)
    (h : (o, l) ∈ u) :
    usedCnt b (u.filter fun p => p.1 != o) + inC b l o = usedCnt b u := by
  induction u with
  | nil => simp at h
  | cons q u ih =>
    obtain ⟨qo, ql⟩ := q
    simp only [List.map_cons, List.nodup_cons] at hn
    by_cases hq : qo = o
    · subst hq
      have hl : ql = l := by
        rcases List.mem_cons.1 h with h | h
        · cases h; rfl
        · exact absurd (List.mem_map_of_mem (f := Prod.fst) h) hn.1
      subst hl
      have he : (u.filter fun p => p.1 != qo) = u := by
        rw [List.filter_eq_self]
        intro p hp
        simp only [bne_iff_ne, ne_eq]
        rintro rfl
        exact hn.1 (List.mem_map_of_mem hp)
      rw [List.filter_cons_of_neg (by simp), he, usedCnt_cons]
      omega
    · rw [List.filter_cons_of_pos (by simpa using hq), usedCnt_cons, usedCnt_cons]
      have h' : (o, l) ∈ u := by
        rcases List.mem_cons.1 h with h | h
        · cases h; exact absurd rfl hq
        · exact h
      have := ih hn.2 h'
      omega

/-- Two entries with the same first byte would both cover it. -/
theorem Inv.nodup {s : State} (h : Inv s) : (s.used.map Prod.fst).Nodup := by
  have hc : ∀ b, usedCnt b s.used ≤ 1 := fun b => by
    have := h.cover.cov b
    split at this <;> omega
  clear h
  generalize s.used = u at hc
  induction u with
  | nil => simp
  | cons q u ih =>
    obtain ⟨o, l⟩ := q
    simp only [List.map_cons, List.nodup_cons]
    refine ⟨?_, ih fun b => ?_⟩
    · intro hm
      obtain ⟨p, hp, he⟩ := List.mem_map.1 hm
      have h1 := usedCnt_pos (b := o) hp
      have h2 := hc o
      rw [usedCnt_cons, inC_self] at h2
      rw [he, inC_self] at h1
      omega
    · have := hc b
      rw [usedCnt_cons] at this
      omega

theorem inv_reserve {s : State} (h : Inv s) {n : Nat} (hn : n ≤ 9223372036854775808) :
    Inv (reserve s n).2 ∧ (reserve s n).1 ≠ .ub := by
  rw [reserve]
  split
  · exact ⟨h, by simp⟩
  · next h0 =>
    split
    · exact ⟨h, by simp⟩
    · split
      · exact ⟨h, by simp⟩
      · split
        · exact ⟨⟨h.cover, h.top, h.small, h.level⟩, by simp⟩
        · next hu =>
          obtain ⟨f, e1, e2, e3⟩ := reserve_lists h0 hn
          simp only [e1]
          have hu : s.used = [] := by simpa using hu
          refine ⟨⟨?_, e3, hn, by simp [hu]⟩, by simp⟩
          simp only [hu]
          exact e2

theorem inv_allocate {s : State} (h : Inv s) (n sz : Nat) :
    Inv (allocate s n sz).2 ∧ (allocate s n sz).1 ≠ .ub ∧
    ((allocate s n sz).1 = .heap → (allocate s n sz).2.used = s.used) ∧
    ((allocate s n sz).2.size = s.size) ∧
    (allocate s n sz).2.locked = s.locked ∧
    ∀ o, (allocate s n sz).1 = .pool o → ∃ l,
      (allocate s n sz).2.used = (o, l) :: s.used ∧ n * sz % 18446744073709551616 ≤ 2 ^ l := by
  rw [allocate]
  split
  · exact ⟨h, by simp, by simp, rfl, rfl, by simp⟩
  · simp only
    split
    · next hsz =>
      obtain ⟨r, e1, e2, e3⟩ := getLevel_ok (n := n * sz % 18446744073709551616)
        (by have := h.small; omega)
      simp only [e1]
      rcases split_ok (start := r) h.cover with ⟨hf, _⟩ | ⟨f', l', hs, hc, hlen, hl, hne⟩
      · simp only [hf]
        exact ⟨⟨h.cover, h.top, h.small, h.level⟩, by simp, by simp, by simp, by simp, by simp⟩
      · simp only [hs, hl]
        match l', hl, hne with
        | c :: cs, hl, _ =>
          have hrl : r < f'.length := (List.getElem?_eq_some_iff.1 hl).1
          have hc' := hc.remove hl (o := c) (by simp)
          rw [← tail_eq_erase] at hc'
          simp only [modLevel_some hl]
          have hany : (s.used.any fun p => p.1 == c) = false := by
            rw [Bool.eq_false_iff]
            intro ha
            simp only [List.any_eq_true, beq_iff_eq] at ha
            obtain ⟨p, hp, he⟩ := ha
            have h1 := usedCnt_pos (b := c) hp
            rw [he, inC_self] at h1
            have h2 := levelCnt_pos (b := c) (k := r) (l := c :: cs) (x := c) (by simp)
            have h3 := levelCnt_le_freeCnt (b := c) (k := 0) hl
            rw [Nat.zero_add] at h3
            rw [inC_self] at h2
            have h4 := hc.cov c
            split at h4 <;> omega
          simp only [hany]
          refine ⟨⟨?_, ?_, h.small, ?_⟩, by simp, by simp, by simp, by simp, ?_⟩
          · refine hc'.congr fun b => ?_
            simp only [Bool.false_eq_true, if_false, usedCnt_cons]
            omega
          · simp only [List.length_set, hlen]
            exact h.top
          · intro p hp
            simp only [Bool.false_eq_true, if_false, List.mem_cons] at hp
            simp only [List.length_set, hlen]
            rcases hp with rfl | hp
            · simpa [hlen] using hrl
            · exact h.level p hp
          · intro o ho
            simp only [Out.pool.injEq] at ho
            subst ho
            exact ⟨r, by simp, e2⟩
    · exact ⟨h, by simp, by simp, by simp, by simp, by simp⟩

theorem inv_free {s : State} (h : Inv s) (o : Nat) :
    Inv (free s o).2 ∧ (free s o).1 ≠ .ub ∧ (free s o).2.size = s.size ∧
    (free s o).2.locked = s.locked ∧
    ((free s o).1 = .done → (free s o).2.used = s.used.filter fun p => p.1 != o) ∧
    ((free s o).1 ≠ .done → (free s o).2 = s) ∧
    (s.locked = false → o ∈ s.used.map Prod.fst → (free s o).1 = .done) := by
  rw [free]
  split
  · next hl => exact ⟨h, by simp, rfl, rfl, by simp, by simp, by simp [hl]⟩
  · split
    · next h0 =>
      refine ⟨h, by simp, rfl, rfl, by simp, by simp, fun _ hm => ?_⟩
      obtain ⟨p, hp, he⟩ := List.mem_map.1 hm
      have h1 := usedCnt_pos (b := p.1) hp
      rw [inC_self] at h1
      have h2 := h.cover.cov p.1
      rw [h0, if_neg (by omega)] at h2
      omega
    · cases hf : s.used.find? fun p => p.1 == o with
      | none =>
        refine ⟨h, by simp, rfl, rfl, by simp, by simp, fun _ hm => ?_⟩
        obtain ⟨p, hp, he⟩ := List.mem_map.1 hm
        have := List.find?_eq_none.1 hf p hp
        simp [he] at this
      | some q =>
        obtain ⟨qo, l⟩ := q
        have h1 := List.mem_of_find?_eq_some hf
        have h2 : qo = o := by simpa using List.find?_some hf
        subst h2
        have hlen := h.level _ h1
        obtain ⟨fl, hfl⟩ : ∃ fl, s.free[l]? = some fl := ⟨s.free[l], by simp⟩
        have c1 : Cover s.free (fun b => usedCnt b (s.used.filter fun p => p.1 != qo) + inC b l qo)
            s.size := h.cover.congr fun b => (usedCnt_filter h.nodup h1).symm
        have c2 := c1.insert hfl
        obtain ⟨f', e1, e2, e3⟩ := mergeLoop_ok (level := l) (o := qo) c2 (by simpa using h.top) rfl
          (by rw [List.getElem?_set_self hlen]) (mem_sIns.2 (Or.inl rfl))
        simp only [modLevel_some hfl, e1]
        refine ⟨⟨e2, ?_, h.small, ?_⟩, by simp, by simp, by simp, by simp, by simp, by simp⟩
        · simp only [e3, List.length_set]
          exact h.top
        · intro p hp
          simp only [e3, List.length_set]
          exact h.level p (List.mem_filter.1 hp).1

end PV.Alloc
