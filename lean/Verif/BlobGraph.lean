import Verif.Blob
/-
  Searching a graph with a growing queue: the invariant.
-/
namespace PV.Blob

open PV

/-- `n` can be reached from `s` through vertices with colour `W`. Not in the code: for statements and proofs. -/
inductive Reach (nb : Nat → List Nat) (S : Nat → Prop) (s : Nat) : Nat → Prop
  | refl : Reach nb S s s
  | step {m n : Nat} : Reach nb S s m → n ∈ nb m → S n → Reach nb S s n

/-- One neighbour: a vertex of colour `W` gets colour `K` and is appended to the queue.
    Not in the code: for statements and proofs. -/
def visit (W K : Nat) (s : (Nat → Nat) × List Nat) (n : Nat) : (Nat → Nat) × List Nat :=
  if s.1 n = W then (upd s.1 n K, s.2 ++ [n]) else s

/-- The search invariant: `c₀` are the colours before, `c` now; `ps` is the queue, of which the
    first `idx` vertices are done and have their final colour `f`. Not in the code: for statements and proofs. -/
structure Trav (nb : Nat → List Nat) (W K : Nat) (f c₀ : Nat → Nat) (s : Nat) (c : Nat → Nat) (ps : List Nat) (idx : Nat) :
    Prop where
  nodup : ps.Nodup
  head : ps.head? = some s
  idx_le : idx ≤ ps.length
  reach : ∀ n, n ∈ ps → Reach nb (fun n => c₀ n = W) s n
  col : ∀ n, c n = if n ∈ ps.take idx then f n else if n ∈ ps then K else c₀ n
  closed : ∀ m, m ∈ ps.take idx → ∀ n, n ∈ nb m → c₀ n = W → n ∈ ps

variable {nb : Nat → List Nat} {W K : Nat} {f c₀ : Nat → Nat} {s : Nat} {c : Nat → Nat} {ps : List Nat} {idx : Nat}

theorem trav_start (hK : s = s) : Trav nb W K f c₀ s (upd c₀ s K) [s] 0 := by
  refine ⟨by simp, rfl, Nat.zero_le _, fun n hn => ?_, fun n => ?_, fun m hm => by simp at hm⟩
  · rw [List.mem_singleton.mp hn]
    exact .refl
  · simp only [List.take_zero, List.not_mem_nil, ↓reduceIte, List.mem_singleton, upd]

theorem Trav.ne_want (t : Trav nb W K f c₀ s c ps idx) (hK : K ≠ W) (hf : ∀ n, f n ≠ W) {n : Nat} :
    c n = W ↔ c₀ n = W ∧ n ∉ ps := by
  rw [t.col]
  by_cases h1 : n ∈ ps.take idx
  · rw [if_pos h1]
    exact ⟨fun e => absurd e (hf n), fun e => absurd (List.mem_of_mem_take h1) e.2⟩
  · rw [if_neg h1]
    by_cases h2 : n ∈ ps
    · rw [if_pos h2]
      exact ⟨fun e => absurd e hK, fun e => absurd h2 e.2⟩
    · rw [if_neg h2]
      exact ⟨fun e => ⟨e, h2⟩, fun e => e.1⟩

/-- One neighbour keeps the invariant. -/
theorem Trav.visit (t : Trav nb W K f c₀ s c ps idx) (hK : K ≠ W) (hf : ∀ n, f n ≠ W) {v n : Nat} (hv : v ∈ ps)
    (hn : n ∈ nb v) :
    Trav nb W K f c₀ s (visit W K (c, ps) n).1 (visit W K (c, ps) n).2 idx ∧
      (c₀ n = W → n ∈ (Blob.visit W K (c, ps) n).2) ∧ ps <+: (Blob.visit W K (c, ps) n).2 := by
  by_cases h : c n = W
  · have h' := (t.ne_want hK hf).mp h
    simp only [Blob.visit, h, ↓reduceIte]
    have htake : (ps ++ [n]).take idx = ps.take idx := List.take_append_of_le_length t.idx_le
    refine ⟨⟨?_, ?_, ?_, fun k hk => ?_, fun k => ?_, fun k hk l hl hc => ?_⟩, fun _ => by simp, List.prefix_append _ _⟩
    · rw [List.nodup_append]
      refine ⟨t.nodup, by simp, fun a ha b hb => ?_⟩
      rw [List.mem_singleton.mp hb]
      exact fun e => h'.2 (e ▸ ha)
    · rw [List.head?_append, t.head]
      rfl
    · rw [List.length_append]
      have := t.idx_le
      omega
    · rcases List.mem_append.mp hk with hk | hk
      · exact t.reach k hk
      · rw [List.mem_singleton.mp hk]
        exact .step (t.reach v hv) hn h'.1
    · rw [htake]
      simp only [upd, List.mem_append, List.mem_singleton]
      by_cases hk : k = n
      · subst hk
        rw [if_pos rfl, if_neg (fun e => h'.2 (List.mem_of_mem_take e)), if_pos (Or.inr rfl)]
      · rw [if_neg hk, t.col]
        simp only [hk, or_false]
    · rw [htake] at hk
      exact List.mem_append_left _ (t.closed k hk l hl hc)
  · simp only [Blob.visit, h, ↓reduceIte]
    refine ⟨t, fun hc => ?_, List.prefix_rfl⟩
    rcases Classical.em (n ∈ ps) with h2 | h2
    · exact h2
    · exact absurd ((t.ne_want hK hf).mpr ⟨hc, h2⟩) h

/-- All neighbours of a vertex. -/
theorem Trav.visits (hK : K ≠ W) (hf : ∀ n, f n ≠ W) {v : Nat} (L : List Nat) : ∀ {c : Nat → Nat} {ps : List Nat},
    Trav nb W K f c₀ s c ps idx → v ∈ ps → (∀ n, n ∈ L → n ∈ nb v) →
    Trav nb W K f c₀ s (L.foldl (Blob.visit W K) (c, ps)).1 (L.foldl (Blob.visit W K) (c, ps)).2 idx ∧
      (∀ n, n ∈ L → c₀ n = W → n ∈ (L.foldl (Blob.visit W K) (c, ps)).2) ∧
      ps <+: (L.foldl (Blob.visit W K) (c, ps)).2 := by
  induction L with
  | nil => exact fun t _ _ => ⟨t, fun n hn => by simp at hn, List.prefix_rfl⟩
  | cons n L ih =>
    intro c ps t hv hL
    obtain ⟨t1, h1, p1⟩ := t.visit hK hf hv (hL n (List.mem_cons_self ..))
    obtain ⟨t2, h2, p2⟩ := ih t1 (p1.subset hv) fun k hk => hL k (List.mem_cons_of_mem _ hk)
    refine ⟨t2, fun k hk hc => ?_, p1.trans p2⟩
    rcases List.mem_cons.mp hk with rfl | hk
    · exact p2.subset (h1 hc)
    · exact h2 k hk hc

/-- A vertex is done. -/
theorem Trav.done (t : Trav nb W K f c₀ s c ps idx) {v : Nat} (hi : ps[idx]? = some v)
    (hcl : ∀ n, n ∈ nb v → c₀ n = W → n ∈ ps) : Trav nb W K f c₀ s (upd c v (f v)) ps (idx + 1) := by
  obtain ⟨hlt, hv⟩ := List.getElem?_eq_some_iff.mp hi
  have htake : ps.take (idx + 1) = ps.take idx ++ [v] := by rw [List.take_succ, hi]; rfl
  refine ⟨t.nodup, t.head, by omega, t.reach, fun n => ?_, fun m hm n hn hc => ?_⟩
  · rw [htake]
    simp only [upd, List.mem_append, List.mem_singleton]
    by_cases hn : n = v
    · simp [hn]
    · rw [if_neg hn, t.col]
      simp [hn]
  · rw [htake] at hm
    rcases List.mem_append.mp hm with hm | hm
    · exact t.closed m hm n hn hc
    · rw [List.mem_singleton.mp hm] at hn
      exact hcl n hn hc

/-- At the end the queue holds exactly the vertices that can be reached. -/
theorem Trav.end (t : Trav nb W K f c₀ s c ps ps.length) :
    (∀ n, n ∈ ps ↔ Reach nb (fun n => c₀ n = W) s n) ∧ ∀ n, c n = if n ∈ ps then f n else c₀ n := by
  refine ⟨fun n => ⟨t.reach n, fun h => ?_⟩, fun n => ?_⟩
  · induction h with
    | refl => exact List.mem_of_mem_head? t.head
    | step _ hn hc ih => exact t.closed _ (by rw [List.take_length]; exact ih) _ hn hc
  · rw [t.col, List.take_length]
    by_cases h : n ∈ ps
    · simp [h]
    · simp [h]

end PV.Blob
