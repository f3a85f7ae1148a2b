import Verif.PoolChannel
/-
  Pooled calls whose output tiles are not at the place of the input tiles (Flip, Transpose)
  or that have several outputs (Split).
-/
namespace PV

open Props (Pair mirror)

/-- Tasks with disjoint effects: if one memory `ms` agrees with the result of every task on
    what that task writes, and with the old memory elsewhere, then every complete
    interleaving ends in `ms`. -/
theorem pooled_generic {ι : Type} {m ms : BMem} {P : ι → Prog UInt8 Unit} {R W : ι → Nat × Nat → Prop}
    (hfoot : ∀ i, (P i).Foot (R i) (W i))
    (hdis : ∀ i j, i ≠ j → ∀ c, W i c → ¬ (R j c ∨ W j c))
    {res : ι → BMem} (hok : ∀ i, (P i).run m = .ok () (res i))
    (hs : ms.size = m.size) (hin : ∀ i b k, W i (b, k) → ms.byte b k = (res i).byte b k)
    (hout : ∀ b k, (∀ i, ¬ W i (b, k)) → ms.byte b k = m.byte b k) (σ : List ι) [DecidableEq ι] :
    ((⟨m, P⟩ : Sys UInt8 Unit ι).exec σ).NoError ∧
    ((∀ i, (((⟨m, P⟩ : Sys UInt8 Unit ι).exec σ).task i).Done) →
      ((⟨m, P⟩ : Sys UInt8 Unit ι).exec σ).mem = ms) := by
  obtain ⟨h1, _, h3⟩ := interleave (v := fun _ => ()) hfoot hdis hok σ
  refine ⟨h1, fun hd => ?_⟩
  obtain ⟨s1, s2, s3⟩ := h3 ⟨fun _ => (), fun i => by
    have := hd i
    have hn := h1 i
    revert this hn
    cases ((⟨m, P⟩ : Sys UInt8 Unit ι).exec σ).task i with
    | ret a => intros; rfl
    | throw => intro _ hn; exact absurd rfl hn.1
    | ub => intro _ hn; exact absurd rfl hn.2
    | read b k c => intro hd; exact hd.elim
    | write b k v c => intro hd; exact hd.elim⟩
  generalize ((⟨m, P⟩ : Sys UInt8 Unit ι).exec σ).mem = mf at s1 s2 s3
  cases mf with
  | mk sz by' =>
  cases ms with
  | mk sz2 by2 =>
  simp only at s1 s2 s3 hs hin hout
  subst s1
  subst hs
  congr 1
  funext b k
  by_cases hW : ∃ i, W i (b, k)
  · obtain ⟨i, hi⟩ := hW
    rw [s2 i b k hi, hin i b k hi]
  · have hW' : ∀ i, ¬ W i (b, k) := fun i hi => hW ⟨i, hi⟩
    rw [s3 b k hW', hout b k hW']

theorem Prog.foot_copy {R W : Nat × Nat → Prop} {bo o bi i : Nat} (hr : R (bi, i)) (hw : W (bo, o)) :
    (Prog.copy bo o bi i).Foot R W :=
  Prog.foot_bind (Prog.foot_load hr) fun _ => Prog.foot_store _ hw

/-! ### Flip -/

/-- The place of a tile after flipping the `w` x `h` rectangle. Not in the code: for statements and proofs. -/
def Tile.mirror (w h : Nat) (hor ver : Bool) (t : Tile) : Tile :=
  ⟨if hor then w - (t.x + t.w) else t.x, if ver then h - (t.y + t.h) else t.y, t.w, t.h⟩

theorem Tile.mirror_in {w h : Nat} {hor ver : Bool} {t : Tile} (ht : t.In w h) :
    (t.mirror w h hor ver).In w h := by
  have a := ht.inX
  have b := ht.inY
  refine ⟨ht.wpos, ht.hpos, ?_, ?_⟩
  · simp only [Tile.mirror]
    split <;> omega
  · simp only [Tile.mirror]
    split <;> omega

theorem u32_wrap {n : Nat} (h : n < 4294967296) : u32 (n + 4294967296) = n := by
  rw [u32, Nat.add_mod_right, Nat.mod_eq_of_lt h]

theorem flipTiles_eq {out : View} {w h n : Nat} {hor ver : Bool} (hn : 0 < n) (hw : 0 < w) (hh : 0 < h)
    (hx : out.x + w < 4294967296) (hy : out.y + h < 4294967296) :
    flipTiles out w h hor ver ((tilesOf w h n).map fun t => t.shift out.x out.y)
      = ((tilesOf w h n).map (Tile.mirror w h hor ver)).map fun t => t.shift out.x out.y := by
  obtain ⟨c1, _, c3⟩ := areaCount_spec hn hw hh
  have hT := tilesOf_tiling hn hw hh
  have hin := fun t ht => hT.tileIn (t := t) ht
  revert hin
  unfold tilesOf
  generalize (areaCount w h n).1 = k at *
  generalize (areaCount w h n).2 = b at *
  intro hin
  -- every tile has full width or full height
  have hfull : ∀ t ∈ relTiles w h k b, if b then t.x = 0 ∧ t.w = w else t.y = 0 ∧ t.h = h := by
    intro t ht
    obtain ⟨i, hi, rfl⟩ := mem_relTiles.1 ht
    cases b <;> simp
  have key : ∀ t ∈ relTiles w h k b, ∀ p, p = (if b then (if ver then
        { t.shift out.x out.y with y := u32 (2 * out.y + h + 4294967296 - u32 ((t.shift out.x out.y).y + t.h)) }
        else t.shift out.x out.y) else (if hor then
        { t.shift out.x out.y with x := u32 (2 * out.x + w + 4294967296 - u32 ((t.shift out.x out.y).x + t.w)) }
        else t.shift out.x out.y)) → p = (t.mirror w h hor ver).shift out.x out.y := by
    intro t ht p hp
    subst hp
    have hi := hin t ht
    have a1 := hi.inX
    have a2 := hi.inY
    have hf := hfull t ht
    cases b with
    | true =>
      simp only [↓reduceIte] at hf ⊢
      cases ver with
      | true =>
        simp only [↓reduceIte, Tile.shift, Tile.mirror]
        rw [u32_of_lt (n := out.y + t.y + t.h) (by omega)]
        have : 2 * out.y + h + 4294967296 - (out.y + t.y + t.h)
          = (out.y + (h - (t.y + t.h))) + 4294967296 := by omega
        rw [this]
        have e : u32 (out.y + (h - (t.y + t.h)) + 4294967296) = out.y + (h - (t.y + t.h)) := by
          exact u32_wrap (by omega)
        have ex : (if hor = true then w - (t.x + t.w) else t.x) = t.x := by split <;> omega
        rw [e, ex]
      | false =>
        simp only [Bool.false_eq_true, ↓reduceIte, Tile.shift, Tile.mirror]
        congr 1
        split <;> omega
    | false =>
      simp only [Bool.false_eq_true, ↓reduceIte] at hf ⊢
      cases hor with
      | true =>
        simp only [↓reduceIte, Tile.shift, Tile.mirror]
        rw [u32_of_lt (n := out.x + t.x + t.w) (by omega)]
        have : 2 * out.x + w + 4294967296 - (out.x + t.x + t.w)
          = (out.x + (w - (t.x + t.w))) + 4294967296 := by omega
        rw [this]
        have e : u32 (out.x + (w - (t.x + t.w)) + 4294967296) = out.x + (w - (t.x + t.w)) := by
          exact u32_wrap (by omega)
        have ex : (if ver = true then h - (t.y + t.h) else t.y) = t.y := by split <;> omega
        rw [e, ex]
      | false =>
        simp only [Bool.false_eq_true, ↓reduceIte, Tile.shift, Tile.mirror]
        congr 1
        split <;> omega
  rcases Nat.lt_or_ge k 2 with hk | hk
  · obtain rfl : k = 1 := by omega
    -- a single tile covers everything
    have : relTiles w h 1 b = [⟨0, 0, w, h⟩] := by
      cases b <;> simp [relTiles, cut_zero, cut_end (n := 1) (by decide)]
    rw [this]
    simp only [List.map_cons, List.map_nil, flipTiles, Tile.mirror, Tile.shift]
    cases hor <;> cases ver <;> simp
  · obtain ⟨k', rfl⟩ : ∃ k', k = k' + 2 := ⟨k - 2, by omega⟩
    obtain ⟨t0, t1, rest, hr⟩ : ∃ t0 t1 rest, relTiles w h (k' + 2) b = t0 :: t1 :: rest := by
      match hL : relTiles w h (k' + 2) b with
      | [] => have := congrArg List.length hL; simp [relTiles] at this
      | [_] => have := congrArg List.length hL; simp [relTiles] at this
      | t0 :: t1 :: rest => exact ⟨t0, t1, rest, rfl⟩
    have g0 : (relTiles w h (k' + 2) b)[0]? = some t0 := by rw [hr]; rfl
    have g1 : (relTiles w h (k' + 2) b)[1]? = some t1 := by rw [hr]; rfl
    obtain ⟨_, g0⟩ := relTiles_get.1 g0
    obtain ⟨_, g1⟩ := relTiles_get.1 g1
    have hy01 : (t0.y = t1.y) ↔ b = false := by
      cases b with
      | true =>
        simp only [↓reduceIte] at g0 g1 c3
        subst g0
        subst g1
        have : cut h (k' + 2) 0 < cut h (k' + 2) 1 := cut_lt_succ (by omega) c3
        simp only [Bool.true_eq_false, iff_false]
        omega
      | false =>
        simp only [Bool.false_eq_true, ↓reduceIte] at g0 g1
        subst g0
        subst g1
        simp
    have hft : flipTiles out w h hor ver ((relTiles w h (k' + 2) b).map fun t => t.shift out.x out.y)
        = (relTiles w h (k' + 2) b).map fun t => (if b then (if ver then
        { t.shift out.x out.y with y := u32 (2 * out.y + h + 4294967296 - u32 ((t.shift out.x out.y).y + t.h)) }
        else t.shift out.x out.y) else (if hor then
        { t.shift out.x out.y with x := u32 (2 * out.x + w + 4294967296 - u32 ((t.shift out.x out.y).x + t.w)) }
        else t.shift out.x out.y)) := by
      rw [hr]
      simp only [List.map_cons, flipTiles]
      have e : ((t0.shift out.x out.y).y = (t1.shift out.x out.y).y) ↔ b = false := by
        simp only [Tile.shift, Nat.add_left_cancel_iff]
        exact hy01
      cases b with
      | true =>
        rw [if_neg (by rw [e]; decide)]
        cases ver <;> simp [Tile.shift]
      | false =>
        rw [if_pos (by rw [e])]
        cases hor <;> simp [Tile.shift]
    rw [hft, List.map_map]
    refine List.map_congr_left fun t ht => ?_
    exact key t ht _ rfl

/-- From tasks with disjoint effects to the claim. -/
theorem pooledLike_gen {Γ : Type} {m ms : BMem} {n k : Nat} (hk : 0 < k) (hkn : k ≤ n)
    {setup : M BMem Γ} {count : Γ → Nat} {body : Γ → Nat → M BMem Unit} {prog : Γ → Nat → Prog UInt8 Unit}
    {single : M BMem Unit} {a : Γ} (hset : setup m = .ok a m) (hcount : count a = k)
    {P : Fin k → Prog UInt8 Unit} {B : Fin k → M BMem Unit} {R W : Fin k → Nat × Nat → Prop}
    (hbody : ∀ i : Fin k, body a i = B i) (hprog : ∀ i : Fin k, prog a i = P i)
    (htie : ∀ i, ∀ m₁ : BMem, m₁.size = m.size → (P i).run m₁ = B i m₁)
    (hfoot : ∀ i, (P i).Foot (R i) (W i))
    (hdis : ∀ i j, i ≠ j → ∀ c, W i c → ¬ (R j c ∨ W j c))
    (hsingle : single m = .ok () ms) (hs : ms.size = m.size)
    (hB : ∀ i, ∃ m', B i m = .ok () m' ∧ ∀ b q, W i (b, q) → ms.byte b q = m'.byte b q)
    (hout : ∀ b q, (∀ i, ¬ W i (b, q)) → ms.byte b q = m.byte b q) :
    PooledLike n setup count body prog single m := by
  obtain ⟨res, hres⟩ : ∃ res : Fin k → BMem, ∀ i, B i m = .ok () (res i) ∧
      ∀ b q, W i (b, q) → ms.byte b q = (res i).byte b q :=
    ⟨fun i => Classical.choose (hB i), fun i => Classical.choose_spec (hB i)⟩
  have e : (fun i : Fin k => prog a i) = P := by
    funext i
    exact hprog i
  refine ⟨a, k, ms, hset, hcount, hk, hkn, ?_, hsingle, ?_, Sys.finish _⟩
  · intro i hi m₁ hm
    have h1 := hprog ⟨i, hi⟩
    have h2 := hbody ⟨i, hi⟩
    simp only at h1 h2
    rw [h1, h2]
    exact htie _ m₁ hm
  · rw [e]
    exact fun σ => pooled_generic hfoot hdis (fun i => by rw [htie i m rfl]; exact (hres i).1) hs
      (fun i b q h => (hres i).2 b q h) hout σ

theorem task2_shift {μ A : Type} {v1 v2 : View}
    {a : List Tile × List Tile} {i : Nat} {t1 t2 : Tile} (h1 : a.1[i]? = some (t1.shift v1.x v1.y))
    (h2 : a.2[i]? = some (t2.shift v2.x v2.y)) (F : View → View → Nat → Nat → M μ A) :
    task2 F v1 v2 a i = F (v1.sub t1) (v2.sub t2) t1.w t1.h := by
  simp only [task2, h1, h2, orUb_some, pure_bind', View.at_shift]
  rfl

theorem ptask2_shift {A : Type} {v1 v2 : View}
    {a : List Tile × List Tile} {i : Nat} {t1 t2 : Tile} (h1 : a.1[i]? = some (t1.shift v1.x v1.y))
    (h2 : a.2[i]? = some (t2.shift v2.x v2.y)) (G : View → View → Nat → Nat → Prog UInt8 A) :
    ptask2 G v1 v2 a i = G (v1.sub t1) (v2.sub t2) t1.w t1.h := by
  simp only [ptask2, h1, h2, Prog.orUb_bind, View.at_shift]
  rfl

theorem progFlip_foot {hor ver : Bool} {inp out : View} {w h : Nat} (ci : inp.img.cc = 1)
    (co : out.img.cc = 1) :
    (progFlip hor ver inp out w h).Foot (inp.cells w h) (out.cells w h) := by
  refine Prog.foot_fold () fun p hp _ => ?_
  obtain ⟨h1, h2⟩ := mem_grid.1 hp
  exact Prog.foot_copy ⟨rfl, _, _, _, h2, h1, by omega, rfl⟩
    ⟨rfl, _, _, _, Props.mirror_lt h2, Props.mirror_lt h1, by omega, rfl⟩

theorem Tile.mirror_has {w h : Nat} {hor ver : Bool} {t : Tile} (ht : t.In w h) {X Y : Nat}
    (hX : X < w) (hY : Y < h) :
    (t.mirror w h hor ver).Has X Y ↔ t.Has (Props.mirror hor w X) (Props.mirror ver h Y) := by
  have a := ht.inX
  have b := ht.inY
  unfold Tile.Has Props.mirror Tile.mirror
  cases hor <;> cases ver <;> simp only [Bool.false_eq_true, ↓reduceIte] <;> omega

/-- The mirrored tiles cut up the rectangle as well. -/
theorem Tiling.mirror {L : List Tile} {w h : Nat} (hL : Tiling L 0 0 w h) (hor ver : Bool) :
    Tiling (L.map (Tile.mirror w h hor ver)) 0 0 w h := by
  refine ⟨?_, ?_, ?_, ?_⟩
  · intro t ht
    obtain ⟨s, hs, rfl⟩ := List.mem_map.1 ht
    exact hL.nonempty s hs
  · intro t ht
    obtain ⟨s, hs, rfl⟩ := List.mem_map.1 ht
    have := Tile.mirror_in (hor := hor) (ver := ver) (hL.tileIn hs)
    have a := this.inX
    have b := this.inY
    omega
  · intro x y _ hx _ hy
    have m1 := Props.mirror_lt (flag := hor) (show x < w by omega)
    have m2 := Props.mirror_lt (flag := ver) (show y < h by omega)
    obtain ⟨t, ht, hh⟩ := hL.cover (Props.mirror hor w x) (Props.mirror ver h y) (by omega) (by omega)
      (by omega) (by omega)
    exact ⟨_, List.mem_map_of_mem ht,
      (Tile.mirror_has (hL.tileIn ht) (show x < w by omega) (show y < h by omega)).2 hh⟩
  · intro i j s t hi hj hij x y hs ht
    rw [List.getElem?_map] at hi hj
    obtain ⟨s', hs', rfl⟩ := Option.map_eq_some_iff.1 hi
    obtain ⟨t', ht', rfl⟩ := Option.map_eq_some_iff.1 hj
    have is := hL.tileIn (List.mem_of_getElem? hs')
    have it := hL.tileIn (List.mem_of_getElem? ht')
    have q := Tile.mirror_in (hor := hor) (ver := ver) is
    have q1 := q.inX
    have q2 := q.inY
    have hs2 := hs
    unfold Tile.Has at hs2
    rw [Tile.mirror_has is (by omega) (by omega)] at hs
    rw [Tile.mirror_has it (by omega) (by omega)] at ht
    exact hL.disjoint i j s' t' hs' ht' hij _ _ hs ht

/-- Pooled calls that write a tile of `out` from a tile of `inp` at another place. -/
theorem pooled_moved {Γ : Type} {m ms : BMem} {inp out : View} {w h wo ho n : Nat} {L : List Tile}
    (p : Pair m inp w h out wo ho) (hL : Tiling L 0 0 wo ho) (hk : 0 < L.length) (hkn : L.length ≤ n)
    {setup : M BMem Γ} {count : Γ → Nat} {body : Γ → Nat → M BMem Unit} {prog : Γ → Nat → Prog UInt8 Unit}
    {single : M BMem Unit} {a : Γ} (hset : setup m = .ok a m) (hcount : count a = L.length)
    {T : Fin L.length → Tile} (hT : ∀ i, (T i).In w h)
    {P : Fin L.length → Prog UInt8 Unit} {B : Fin L.length → M BMem Unit}
    {val : Nat → Nat → Nat → UInt8}
    (hbody : ∀ i : Fin L.length, body a i = B i) (hprog : ∀ i : Fin L.length, prog a i = P i)
    (htie : ∀ i, ∀ m₁ : BMem, m₁.size = m.size → (P i).run m₁ = B i m₁)
    (hfoot : ∀ i : Fin L.length, (P i).Foot ((inp.sub (T i)).cells (T i).w (T i).h)
      ((out.sub L[i]).cells L[i].w L[i].h))
    (hB : ∀ i : Fin L.length, ∃ m', B i m = .ok () m' ∧
      WritesRoi m m' (out.sub L[i]) L[i].w L[i].h fun x y c => val (L[i].x + x) (L[i].y + y) c)
    (hsingle : single m = .ok () ms) (hs : WritesRoi m ms out wo ho val) :
    PooledLike n setup count body prog single m := by
  have e : (fun i : Fin L.length => prog a i) = P := by
    funext i
    exact hprog i
  refine ⟨a, L.length, ms, hset, hcount, hk, hkn, ?_, hsingle, ?_, Sys.finish _⟩
  · intro i hi m₁ hm
    have h1 := hprog ⟨i, hi⟩
    have h2 := hbody ⟨i, hi⟩
    simp only at h1 h2
    rw [h1, h2]
    exact htie _ m₁ hm
  · rw [e]
    intro σ
    obtain ⟨x1, x2⟩ := pooled_writes p.wfo p.fito hL (F := val) (P := P) hfoot
      (by
        intro i j hij c hc hi
        obtain ⟨e1, x, y, ch, hxy, hch, he⟩ := View.cells_sub hc
        obtain ⟨e2, x', y', ch', hxy', hch', he'⟩ := View.cells_sub hi
        have ti := hL.tileIn (t := L[i]) (List.getElem_mem _)
        have tj := hT j
        have a1 := ti.inX
        have a2 := ti.inY
        have a3 := tj.inX
        have a4 := tj.inY
        unfold Tile.Has at hxy hxy'
        exact p.apart x y ch x' y' ch' (by omega) (by omega) hch (by omega) (by omega)
          hch' (by rw [← e1, ← e2]) (by rw [← he, ← he']))
      (fun i => by
        obtain ⟨mi, b1, b2⟩ := hB i
        exact ⟨mi, by rw [htie i m rfl]; exact b1, b2⟩) σ
    exact ⟨x1, fun hd => (x2 hd).unique hs⟩

/-- Pooled `Flip`. -/
theorem pooled_flip {m : BMem} {inp out : View} {w h n : Nat} (hor ver : Bool) (hn : 0 < n)
    (hn' : n < 4294967296) (p : Pair m inp w h out w h) (ci : inp.img.cc = 1) (co : out.img.cc = 1) :
    PooledLike n (poolSetupFlip inp out w h hor ver n) (fun a => a.1.length)
      (task2 (fun v1 v2 w h => Flip v1 v2 w h hor ver) inp out)
      (ptask2 (progFlip hor ver) inp out) (Flip inp out w h hor ver) m := by
  have hT := tilesOf_tiling hn p.fiti.wpos p.fiti.hpos
  obtain ⟨l1, l2⟩ := tilesOf_length hn p.fiti.wpos p.fiti.hpos
  obtain ⟨ms, hms, hspec⟩ := Props.C18_flip hor ver p ci co
  obtain ⟨_, _, _, hx, hy, _⟩ := View.facts p.wfo p.fito
  have inX := p.fito.inX
  have inY := p.fito.inY
  have hset : poolSetupFlip inp out w h hor ver n m
      = .ok ((tilesOf w h n).map fun t => t.shift inp.x inp.y,
          ((tilesOf w h n).map (Tile.mirror w h hor ver)).map fun t => t.shift out.x out.y) m := by
    rw [poolSetupFlip, bind_ok (poolSetup2_eq hn hn' p.wfi p.wfo p.fiti p.fito)]
    simp only [flipTiles_eq hn p.fiti.wpos p.fiti.hpos (show out.x + w < 4294967296 by omega)
      (show out.y + h < 4294967296 by omega)]
    rfl
  generalize tilesOf w h n = L at *
  have hM := hT.mirror hor ver
  have hl : (L.map (Tile.mirror w h hor ver)).length = L.length := by simp
  have hin : ∀ i : Fin L.length, L[i].In w h := fun i => hT.tileIn (List.getElem_mem _)
  have hp : ∀ (t : Tile), t.In w h → ∀ (m₁ : BMem), m₁.size = m.size →
      Pair m₁ (inp.sub t) t.w t.h (out.sub (t.mirror w h hor ver)) t.w t.h := by
    intro t ht m₁ hs
    exact ⟨p.wfi.same hs, p.wfo.same hs, p.fiti.sub ht,
      p.fito.sub (Tile.mirror_in ht), p.apart.sub ht (Tile.mirror_in ht)⟩
  have hB : ∀ t : Tile, t.In w h → ∃ m', Flip (inp.sub t) (out.sub (t.mirror w h hor ver)) t.w t.h hor ver m
        = .ok () m' ∧ WritesRoi m m' (out.sub (t.mirror w h hor ver)) t.w t.h fun x y c =>
          inp.get m (Props.mirror hor w ((t.mirror w h hor ver).x + x))
            (Props.mirror ver h ((t.mirror w h hor ver).y + y)) c := by
    intro t ht
    obtain ⟨mi, b1, b2⟩ := Props.C18_flip hor ver (hp t ht m rfl) ci co
    refine ⟨mi, b1, b2.size_eq, fun x y c hx hy hc => ?_, b2.outside⟩
    rw [b2.inside x y c hx hy hc, View.sub_get]
    have a1 := ht.inX
    have a2 := ht.inY
    have mx : Props.mirror hor w ((t.mirror w h hor ver).x + x) = t.x + Props.mirror hor t.w x := by
      unfold Props.mirror Tile.mirror
      cases hor <;> simp only [Bool.false_eq_true, ↓reduceIte] <;> omega
    have my : Props.mirror ver h ((t.mirror w h hor ver).y + y) = t.y + Props.mirror ver t.h y := by
      unfold Props.mirror Tile.mirror
      cases ver <;> simp only [Bool.false_eq_true, ↓reduceIte] <;> omega
    rw [mx, my]
  refine pooled_moved (L := L.map (Tile.mirror w h hor ver)) (T := fun i => L[i.1]'(hl ▸ i.2)) p hM
    (by omega) (by omega) hset (by simp) (fun i => hin ⟨i.1, hl ▸ i.2⟩)
    (P := fun i => progFlip hor ver (inp.sub (L[i.1]'(hl ▸ i.2)))
      (out.sub ((L[i.1]'(hl ▸ i.2)).mirror w h hor ver)) (L[i.1]'(hl ▸ i.2)).w (L[i.1]'(hl ▸ i.2)).h)
    (B := fun i => Flip (inp.sub (L[i.1]'(hl ▸ i.2)))
      (out.sub ((L[i.1]'(hl ▸ i.2)).mirror w h hor ver)) (L[i.1]'(hl ▸ i.2)).w (L[i.1]'(hl ▸ i.2)).h hor ver)
    ?_ ?_ (fun i m₁ hs => (progFlip_tie hor ver (hp _ (hin ⟨i.1, hl ▸ i.2⟩) m₁ hs) ci co).symm)
    ?_ ?_ hms hspec
  · exact fun i => task2_shift (shift_get (hl ▸ i.2)) (by rw [shift_get i.2, List.getElem_map]) _
  · exact fun i => ptask2_shift (shift_get (hl ▸ i.2)) (by rw [shift_get i.2, List.getElem_map]) _
  · intro i
    have e : (L.map (Tile.mirror w h hor ver))[i] = (L[i.1]'(hl ▸ i.2)).mirror w h hor ver :=
      List.getElem_map ..
    rw [e]
    exact progFlip_foot ci co
  · intro i
    have e : (L.map (Tile.mirror w h hor ver))[i] = (L[i.1]'(hl ▸ i.2)).mirror w h hor ver :=
      List.getElem_map ..
    rw [e]
    exact hB _ (hin ⟨i.1, hl ▸ i.2⟩)

/-! ### Transpose -/

theorem areaYAxis_same {L : List Tile} (h : ∀ s ∈ L, ∀ t ∈ L, s.x = t.x ∧ s.w = t.w) :
    areaYAxis L = true := by
  induction L with
  | nil => rfl
  | cons a L ih =>
    cases L with
    | nil => rfl
    | cons b L =>
      have hab := h a (by simp) b (by simp)
      rw [areaYAxis, if_neg (by omega)]
      exact ih fun s hs t ht => h s (List.mem_cons_of_mem _ hs) t (List.mem_cons_of_mem _ ht)

theorem areaYAxis_rows {w h k x y : Nat} :
    areaYAxis ((relTiles w h k true).map fun t => t.shift x y) = true := by
  refine areaYAxis_same ?_
  intro s hs t ht
  obtain ⟨s', hs', rfl⟩ := List.mem_map.1 hs
  obtain ⟨t', ht', rfl⟩ := List.mem_map.1 ht
  obtain ⟨i, _, rfl⟩ := mem_relTiles.1 hs'
  obtain ⟨j, _, rfl⟩ := mem_relTiles.1 ht'
  simp [Tile.shift]

theorem areaYAxis_columns {w h k x y : Nat} (hk : 2 ≤ k) (hle : k ≤ w) :
    areaYAxis ((relTiles w h k false).map fun t => t.shift x y) = false := by
  obtain ⟨k, rfl⟩ : ∃ k', k = k' + 2 := ⟨k - 2, by omega⟩
  have h1 := cut_lt_succ (total := w) (n := k + 2) (i := 0) (by omega) hle
  have e : List.range (k + 2) = 0 :: 1 :: (List.range k).map (· + 2) := by
    rw [List.range_succ_eq_map, List.range_succ_eq_map]
    simp [Function.comp_def]
  simp only [relTiles, e, List.map_cons, Bool.false_eq_true, ↓reduceIte, Tile.shift, areaYAxis]
  rw [if_pos (Or.inl (by simp only [Nat.zero_add] at h1; omega))]

theorem relTiles_one {w h : Nat} {b : Bool} : relTiles w h 1 b = [⟨0, 0, w, h⟩] := by
  cases b <;> simp [relTiles, cut, Nat.mod_one]

theorem areaCount_square {s n : Nat} (hs : 0 < s) (hn : 0 < n) : (areaCount s s n).2 = true := by
  unfold areaCount cacheSize
  refine decide_eq_true ?_
  have : s / 16 ≤ s := Nat.div_le_self _ _
  generalize s / 16 = q at this
  show (if s > n then n else s) ≥ if (if q = 0 then 1 else q) > n then n else if q = 0 then 1 else q
  split <;> split <;> split <;> omega

/-- Both vectors of the pooled Transpose: the input is cut into rows, the output into the
    corresponding columns. -/
theorem poolSetupSizes_transpose {m : BMem} {inp out : View} {w h n : Nat} (hn : 0 < n)
    (hn' : n < 4294967296) (p : Pair m inp w h out h w) :
    ∃ k, 0 < k ∧ k ≤ n ∧ k ≤ h ∧ ∀ s : BMem, poolSetupSizes inp w h out h w true n s
      = .ok ((relTiles w h k true).map fun t => t.shift inp.x inp.y,
          (relTiles h w k false).map fun t => t.shift out.x out.y) s := by
  have inX := p.fiti.inX
  have inY := p.fiti.inY
  have outX := p.fito.inX
  have outY := p.fito.inY
  have hw := p.fiti.wpos
  have hh := p.fiti.hpos
  obtain ⟨_, _, _, iw, ih, _⟩ := View.facts p.wfi p.fiti
  obtain ⟨_, _, _, ow, oh, _⟩ := View.facts p.wfo p.fito
  have hs : 0 < min w h := by omega
  have hb : (areaCount (min w h) (min w h) n).2 = true := areaCount_square hs hn
  obtain ⟨c1, c2, c3⟩ := areaCount_spec hn hs hs
  rw [hb] at c3
  simp only [↓reduceIte] at c3
  refine ⟨(areaCount (min w h) (min w h) n).1, c1, c2, by omega, fun s => ?_⟩
  have e1 : tilesOf (min w h) (min w h) n
      = relTiles (min w h) (min w h) (areaCount (min w h) (min w h) n).1 true := by
    rw [tilesOf, hb]
  have e2 : min h w = min w h := Nat.min_comm _ _
  rw [poolSetupSizes, bind_ok (validate_on_ok (m := m) (vs := [inp]) (by simp; exact ⟨p.wfi, p.fiti⟩)),
    bind_ok (validate_on_ok (m := m) (vs := [out]) (by simp; exact ⟨p.wfo, p.fito⟩)), e2,
    poolArea, poolArea, poolThreads_eq hn hn', pure_bind', pure_bind',
    areaCalculate_eq hn hs hs (by omega) (by omega), pure_bind',
    areaCalculate_eq hn hh hw (by omega) (by omega), pure_bind', e1]
  generalize (areaCount (min w h) (min w h) n).1 = k at *
  have l1 : ((relTiles (min w h) (min w h) k true).map fun t => t.shift inp.x inp.y).length = k := by
    simp [relTiles]
  have l2 : ((relTiles h w k false).map fun t => t.shift out.x out.y).length = k := by
    simp [relTiles]
  rw [areaCopy, l1, if_pos (by omega), u32_of_lt (by omega), areaYAxis_rows]
  simp only [↓reduceIte, Bool.not_true]
  rw [areaFill_eq false c1 (by omega) (by omega), pure_bind', areaCopy, l2, if_pos (by omega),
    u32_of_lt (by omega)]
  simp only [↓reduceIte]
  rw [areaFill_eq _ c1 (by omega) (by omega), pure_bind']
  rcases Nat.lt_or_ge k 2 with h2 | h2
  · have : k = 1 := by omega
    subst this
    simp only [relTiles_one]
    rfl
  · rw [areaYAxis_columns h2 (by omega)]
    rfl

theorem progTranspose_foot {inp out : View} {w h : Nat} (ci : inp.img.cc = 1) (co : out.img.cc = 1) :
    (progTranspose inp out w h).Foot (inp.cells w h) (out.cells h w) := by
  refine Prog.foot_fold () fun p hp _ => ?_
  obtain ⟨h1, h2⟩ := mem_grid.1 hp
  exact Prog.foot_copy ⟨rfl, _, _, _, h1, h2, by omega, rfl⟩ ⟨rfl, _, _, _, h2, h1, by omega, rfl⟩

/-- Pooled `Transpose`. -/
theorem pooled_transpose {m : BMem} {inp out : View} {w h n : Nat} (hn : 0 < n)
    (hn' : n < 4294967296) (p : Pair m inp w h out h w) (ci : inp.img.cc = 1) (co : out.img.cc = 1) :
    PooledLike n (poolSetupSizes inp w h out h w true n) (fun a => a.1.length)
      (task2 Transpose inp out) (ptask2 progTranspose inp out) (Transpose inp out w h) m := by
  obtain ⟨ms, hms, hspec⟩ := Props.C19_transpose p ci co
  obtain ⟨k, k1, k2, k3, hset⟩ := poolSetupSizes_transpose hn hn' p
  have hL := relTiles_tiling (yAxis := false) k1 p.fito.wpos p.fito.hpos k3
  have hI := relTiles_tiling (yAxis := true) k1 p.fiti.wpos p.fiti.hpos k3
  have hl : (relTiles h w k false).length = k := by simp [relTiles]
  have g : ∀ i : Fin (relTiles h w k false).length, (relTiles h w k false)[i]
      = ⟨cut h k i, 0, cut h k (i + 1) - cut h k i, w⟩ := by
    intro i
    have := relTiles_get.1 (List.getElem?_eq_getElem i.2)
    exact this.2.symm
  have hk : ∀ i : Fin (relTiles h w k false).length, i.1 < k := fun i => by
    have := i.2
    omega
  have hin : ∀ i : Fin (relTiles h w k false).length,
      (⟨0, cut h k i, w, cut h k (i + 1) - cut h k i⟩ : Tile).In w h := by
    intro i
    exact hI.tileIn (mem_relTiles.2 ⟨i.1, hk i, by simp⟩)
  have hon : ∀ i : Fin (relTiles h w k false).length,
      (⟨cut h k i, 0, cut h k (i + 1) - cut h k i, w⟩ : Tile).In h w := by
    intro i
    exact hL.tileIn (mem_relTiles.2 ⟨i.1, hk i, by simp⟩)
  have hp : ∀ (i : Fin (relTiles h w k false).length) (m₁ : BMem), m₁.size = m.size →
      Pair m₁ (inp.sub ⟨0, cut h k i, w, cut h k (i + 1) - cut h k i⟩) w (cut h k (i + 1) - cut h k i)
        (out.sub ⟨cut h k i, 0, cut h k (i + 1) - cut h k i, w⟩) (cut h k (i + 1) - cut h k i) w := by
    intro i m₁ hs
    exact ⟨p.wfi.same hs, p.wfo.same hs, p.fiti.sub (hin i), p.fito.sub (hon i),
      p.apart.sub (hin i) (hon i)⟩
  refine pooled_moved (L := relTiles h w k false)
    (T := fun i => ⟨0, cut h k i, w, cut h k (i + 1) - cut h k i⟩) p hL (by omega) (by omega) (hset m)
    (by simp [relTiles]) hin
    (P := fun i => progTranspose (inp.sub ⟨0, cut h k i, w, cut h k (i + 1) - cut h k i⟩)
      (out.sub ⟨cut h k i, 0, cut h k (i + 1) - cut h k i, w⟩) w (cut h k (i + 1) - cut h k i))
    (B := fun i => Transpose (inp.sub ⟨0, cut h k i, w, cut h k (i + 1) - cut h k i⟩)
      (out.sub ⟨cut h k i, 0, cut h k (i + 1) - cut h k i, w⟩) w (cut h k (i + 1) - cut h k i))
    ?_ ?_ (fun i m₁ hs => (progTranspose_tie (hp i m₁ hs) ci co).symm) ?_ ?_ hms hspec
  · exact fun i => task2_shift (v1 := inp) (v2 := out)
      (t1 := ⟨0, cut h k i, w, cut h k (i + 1) - cut h k i⟩)
      (t2 := ⟨cut h k i, 0, cut h k (i + 1) - cut h k i, w⟩)
      (by simp only [List.getElem?_map]; rw [relTiles_get.2 ⟨hk i, rfl⟩]; rfl)
      (by simp only [List.getElem?_map]; rw [relTiles_get.2 ⟨hk i, rfl⟩]; rfl) _
  · exact fun i => ptask2_shift (v1 := inp) (v2 := out)
      (t1 := ⟨0, cut h k i, w, cut h k (i + 1) - cut h k i⟩)
      (t2 := ⟨cut h k i, 0, cut h k (i + 1) - cut h k i, w⟩)
      (by simp only [List.getElem?_map]; rw [relTiles_get.2 ⟨hk i, rfl⟩]; rfl)
      (by simp only [List.getElem?_map]; rw [relTiles_get.2 ⟨hk i, rfl⟩]; rfl) _
  · intro i
    rw [g i]
    exact progTranspose_foot ci co
  · intro i
    rw [g i]
    obtain ⟨m', b1, b2⟩ := Props.C19_transpose (hp i m rfl) ci co
    refine ⟨m', b1, b2.size_eq, fun x y c hx hy hc => ?_, b2.outside⟩
    rw [b2.inside x y c hx hy hc, View.sub_get]

end PV
