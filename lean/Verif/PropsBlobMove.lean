import Verif.PropsBlob
import Verif.PropsLaws
import Verif.PropsMorph
import Mathlib.Data.List.Perm.Subperm
import Mathlib.Data.List.Nodup
import Mathlib.Data.List.Pairwise
/-
  C182: blob detection agrees with the functions which move or count pixels.
-/
namespace PV.BlobMove
open PV PV.Props PV.Blob PV.Laws

/-- The blobs are the pieces of a set. -/
structure Pieces (S : Nat × Nat → Prop) (bs : List BlobInfo) : Prop where
  nodup : (bs.flatMap (·.point)).Nodup
  all : ∀ p, p ∈ bs.flatMap (·.point) ↔ S p
  nonempty : ∀ b, b ∈ bs → b.point ≠ []
  piece : ∀ b, b ∈ bs → ∀ p, p ∈ b.point → ∀ q, q ∈ b.point ↔ Conn S p q

variable {S S' : Nat × Nat → Prop} {bs bs' : List BlobInfo}

theorem Pieces.mem (P : Pieces S bs) {b : BlobInfo} (hb : b ∈ bs) {p : Nat × Nat} (hp : p ∈ b.point) : S p :=
  (P.all p).1 (List.mem_flatMap.2 ⟨b, hb, hp⟩)

theorem Pieces.one (P : Pieces S bs) {p : Nat × Nat} (hp : S p) : ∃ b, b ∈ bs ∧ p ∈ b.point := List.mem_flatMap.1 ((P.all p).2 hp)

theorem Pieces.points (P : Pieces S bs) {b : BlobInfo} (hb : b ∈ bs) : b.point.Nodup := by
  have := P.nodup
  rw [List.nodup_flatMap] at this
  exact this.1 b hb

/-- Blobs with a common point are the same. -/
theorem Pieces.same (P : Pieces S bs) {b c : BlobInfo} (hb : b ∈ bs) (hc : c ∈ bs) {p : Nat × Nat} (h1 : p ∈ b.point) (h2 : p ∈ c.point) : b = c := by
  have hn := P.nodup
  rw [List.nodup_flatMap] at hn
  by_contra hne
  haveI : Std.Symm (Function.onFun List.Disjoint fun x : BlobInfo => x.point) := ⟨fun _ _ h _ a b => h b a⟩
  have hd := hn.2.forall hb hc hne
  exact hd h1 h2

/-- What moves a set to another one: steps between neighbours go to such steps. -/
structure Move (S S' : Nat × Nat → Prop) (f g : Nat × Nat → Nat × Nat) : Prop where
  into : ∀ p, S p → S' (f p)
  back : ∀ p, S p → g (f p) = p
  adj : ∀ p q, S p → S q → Adj8 p q → Adj8 (f p) (f q)

variable {f g : Nat × Nat → Nat × Nat}

theorem Move.conn (M : Move S S' f g) {p q : Nat × Nat} (hp : S p) (c : Conn S p q) : Conn S' (f p) (f q) := by
  have key : S q ∧ Conn S' (f p) (f q) := by
    induction c with
    | refl => exact ⟨hp, .refl⟩
    | step c a hr ih => exact ⟨hr, ih.2.step (M.adj _ _ ih.1 hr a) (M.into _ hr)⟩
  exact key.2

/-- The blobs of `bs'` are those of `bs` with their points moved by `f`. -/
def Moved (f : Nat × Nat → Nat × Nat) (bs bs' : List BlobInfo) : Prop :=
  bs'.length = bs.length ∧ (∀ b, b ∈ bs → ∃ b', b' ∈ bs' ∧ (b.point.map f).Perm b'.point) ∧
    ∀ b', b' ∈ bs' → ∃ b, b ∈ bs ∧ (b.point.map f).Perm b'.point

theorem moved_one (P : Pieces S bs) (P' : Pieces S' bs') (M : Move S S' f g) (M' : Move S' S g f) {b b' : BlobInfo} (hb : b ∈ bs) (hb' : b' ∈ bs')
    {s : Nat × Nat} (hs : s ∈ b.point) (hs' : f s ∈ b'.point) : (b.point.map f).Perm b'.point := by
  have S1 := P.mem hb hs
  refine (List.perm_ext_iff_of_nodup ?_ (P'.points hb')).2 fun q => ?_
  · exact nodup_map_inj (P.points hb) fun x hx y hy e => by rw [← M.back x (P.mem hb hx), ← M.back y (P.mem hb hy), e]
  · rw [P'.piece b' hb' _ hs', List.mem_map]
    constructor
    · rintro ⟨p, hp, rfl⟩
      exact M.conn S1 ((P.piece b hb s hs p).1 hp)
    · intro c
      have hq := (Conn.symm (M.into _ S1) c).2
      have := M'.conn (M.into _ S1) c
      rw [M.back s S1] at this
      exact ⟨g q, (P.piece b hb s hs _).2 this, M'.back q hq⟩

theorem moved_le (P : Pieces S bs) (P' : Pieces S' bs') (M : Move S S' f g) (M' : Move S' S g f) : bs.length ≤ bs'.length := by
  have hex : ∀ b, b ∈ bs → ∃ b', b' ∈ bs' ∧ (b.point.map f).Perm b'.point := by
    intro b hb
    obtain ⟨s, hs⟩ := List.exists_mem_of_ne_nil _ (P.nonempty b hb)
    obtain ⟨b', hb', hs'⟩ := P'.one (M.into s (P.mem hb hs))
    exact ⟨b', hb', moved_one P P' M M' hb hb' hs hs'⟩
  classical
  let F : BlobInfo → BlobInfo := fun b => if h : b ∈ bs then (hex b h).choose else b
  have hF : ∀ b, b ∈ bs → F b ∈ bs' ∧ (b.point.map f).Perm (F b).point := by
    intro b hb
    simp only [F, dif_pos hb]
    exact (hex b hb).choose_spec
  have hn : (bs.map F).Nodup := by
    refine nodup_map_inj (blobs_nodup P.nodup P.nonempty) fun x hx y hy e => ?_
    obtain ⟨s, hs⟩ := List.exists_mem_of_ne_nil _ (P.nonempty x hx)
    have h1 := (hF x hx).2.mem_iff.1 (List.mem_map_of_mem (f := f) hs)
    rw [e] at h1
    obtain ⟨t, ht, e'⟩ := List.mem_map.1 ((hF y hy).2.mem_iff.2 h1)
    have : t = s := by rw [← M.back t (P.mem hy ht), ← M.back s (P.mem hx hs), e']
    exact P.same hx hy hs (this ▸ ht)
  have := (hn.subperm (l₂ := bs') fun x hx => by
    obtain ⟨b, hb, rfl⟩ := List.mem_map.1 hx
    exact (hF b hb).1).length_le
  rwa [List.length_map] at this

theorem moved (P : Pieces S bs) (P' : Pieces S' bs') (M : Move S S' f g) (M' : Move S' S g f) : Moved f bs bs' := by
  refine ⟨Nat.le_antisymm (moved_le P' P M' M) (moved_le P P' M M'), fun b hb => ?_, fun b' hb' => ?_⟩
  · obtain ⟨s, hs⟩ := List.exists_mem_of_ne_nil _ (P.nonempty b hb)
    obtain ⟨b', hb', hs'⟩ := P'.one (M.into s (P.mem hb hs))
    exact ⟨b', hb', moved_one P P' M M' hb hb' hs hs'⟩
  · obtain ⟨s, hs⟩ := List.exists_mem_of_ne_nil _ (P'.nonempty b' hb')
    have S1 := P'.mem hb' hs
    obtain ⟨b, hb, hs'⟩ := P.one (M'.into s S1)
    refine ⟨b, hb, moved_one P P' M M' hb hb' hs' ?_⟩
    rw [M'.back s S1]
    exact hs

/-- A movement of positions inside of rectangles -/
structure Shift (w h w' h' : Nat) (f g : Nat × Nat → Nat × Nat) : Prop where
  into : ∀ p, p.1 < w → p.2 < h → (f p).1 < w' ∧ (f p).2 < h'
  back : ∀ p, p.1 < w → p.2 < h → g (f p) = p
  near : ∀ p q, p.1 < w → p.2 < h → q.1 < w → q.2 < h → Near 1 p.1 q.1 → Near 1 p.2 q.2 → Near 1 (f p).1 (f q).1 ∧ Near 1 (f p).2 (f q).2

/-- From the position in a rectangle to that in the image -/
def place (v : View) (p : Nat × Nat) : Nat × Nat := (v.x + p.1, v.y + p.2)

/-- and back -/
def local' (v : View) (p : Nat × Nat) : Nat × Nat := (p.1 - v.x, p.2 - v.y)

theorem move_of {m m' : BMem} {v v' : View} {w h w' h' : Nat} {thr thr' : UInt8} (M : Shift w h w' h' f g)
    (val : ∀ p, p.1 < w → p.2 < h → thr ≤ v.get m p.1 p.2 0 → thr' ≤ v'.get m' (f p).1 (f p).2 0) :
    Move (Fg m v w h thr) (Fg m' v' w' h' thr') (fun p => place v' (f (local' v p))) (fun p => place v (g (local' v' p))) := by
  have hl : ∀ p, Fg m v w h thr p → (local' v p).1 < w ∧ (local' v p).2 < h ∧ place v (local' v p) = p := by
    rintro ⟨x, y⟩ ⟨h1, h2, h3, h4, _⟩
    simp only [local', place, Prod.mk.injEq] at *
    omega
  have lp : ∀ (v : View) p, local' v (place v p) = p := fun v p => by simp [local', place]
  refine ⟨fun p hp => ?_, fun p hp => ?_, fun p q hp hq a => ?_⟩
  · obtain ⟨h1, h2, _⟩ := hl p hp
    obtain ⟨h3, h4⟩ := M.into _ h1 h2
    have := val _ h1 h2 hp.2.2.2.2
    simp only [Fg, place] at *
    refine ⟨by omega, by omega, by omega, by omega, ?_⟩
    rwa [Nat.add_sub_cancel_left, Nat.add_sub_cancel_left]
  · obtain ⟨h1, h2, h3⟩ := hl p hp
    simp only [lp]
    rw [M.back _ h1 h2]
    exact h3
  · obtain ⟨h1, h2, h3⟩ := hl p hp
    obtain ⟨k1, k2, k3⟩ := hl q hq
    obtain ⟨a1, a2, a3, a4, a5⟩ := a
    have n1 : Near 1 (local' v p).1 (local' v q).1 := by
      simp only [Near, local']
      omega
    have n2 : Near 1 (local' v p).2 (local' v q).2 := by
      simp only [Near, local']
      omega
    obtain ⟨b1, b2⟩ := M.near _ _ h1 h2 k1 k2 n1 n2
    simp only [Near] at b1 b2
    refine ⟨fun e => a1 ?_, ?_, ?_, ?_, ?_⟩
    · have e' := congrArg (fun r => place v (g (local' v' r))) e
      simp only [lp] at e'
      rw [M.back _ h1 h2, M.back _ k1 k2] at e'
      rw [← h3, ← k3]
      exact e'
    all_goals
      simp only [place]
      omega

/-- The blobs of a gray-scale rectangle -/
theorem pieces {m : BMem} {v : View} {w h : Nat} (thr : UInt8) (o : One m v w h) (cc : v.img.cc = 1) (small : (w + 2) * (h + 2) < 2 ^ 32) :
    ∃ bs, find v w h Params.none thr m = .ok bs m ∧ Pieces (Fg m v w h thr) bs := by
  obtain ⟨bs, h1, h2, h3, h4⟩ := C53_components (thr := thr) o cc small
  exact ⟨bs, h1, h2, h3, fun b hb => (h4 b hb).1, fun b hb => (h4 b hb).2⟩

/-- One step from `a` towards `b` -/
def toward (a b : Nat) : Nat := if a < b then a + 1 else if b < a then a - 1 else a

theorem toward_spec (a b : Nat) : a ≤ toward a b + 1 ∧ toward a b ≤ a + 1 ∧ (a < b → a < toward a b ∧ toward a b ≤ b) ∧ (b < a → toward a b < a ∧ b ≤ toward a b) ∧
    (a = b → toward a b = a) := by
  unfold toward
  split
  · omega
  · split <;> omega

/-- Points of a box around a point are connected to it inside of the box. -/
theorem box_conn {R : Nat × Nat → Prop} {p : Nat × Nat} {dx dy x0 x1 y0 y1 : Nat} (hp : x0 ≤ p.1 ∧ p.1 < x1 ∧ y0 ≤ p.2 ∧ p.2 < y1)
    (hR : ∀ q, Near dx p.1 q.1 → Near dy p.2 q.2 → x0 ≤ q.1 ∧ q.1 < x1 ∧ y0 ≤ q.2 ∧ q.2 < y1 → R q) :
    ∀ n q, q.1 - p.1 + (p.1 - q.1) + (q.2 - p.2 + (p.2 - q.2)) ≤ n → Near dx p.1 q.1 → Near dy p.2 q.2 →
      x0 ≤ q.1 ∧ q.1 < x1 ∧ y0 ≤ q.2 ∧ q.2 < y1 → Conn R p q := by
  intro n
  induction n with
  | zero =>
    rintro ⟨a, b⟩ hn _ _ _
    obtain ⟨c, d⟩ := p
    simp only at hn
    obtain ⟨rfl, rfl⟩ : a = c ∧ b = d := by omega
    exact .refl
  | succ n ih =>
    rintro ⟨a, b⟩ hn n1 n2 hb
    obtain ⟨c, d⟩ := p
    by_cases e : (a, b) = (c, d)
    · rw [e]
      exact .refl
    · have hne : ¬ (a = c ∧ b = d) := fun h => e (Prod.ext h.1 h.2)
      have t1 := toward_spec a c
      have t2 := toward_spec b d
      simp only [Near] at *
      generalize toward a c = a' at *
      generalize toward b d = b' at *
      refine (ih (a', b') ?_ ?_ ?_ ?_).step ⟨?_, ?_, ?_, ?_, ?_⟩ (hR (a, b) n1 n2 hb)
      · simp only
        omega
      · simp only
        omega
      · simp only
        omega
      · simp only
        omega
      · intro he
        simp only [Prod.mk.injEq] at he
        omega
      all_goals
        simp only
        omega

/-- More pixels, each of them connected to one of the former pixels: blobs may grow together, but none is lost and none is new. -/
theorem grown (P : Pieces S bs) (P' : Pieces S' bs') (sub : ∀ p, S p → S' p) (near : ∀ q, S' q → ∃ p, S p ∧ Conn S' p q) :
    (∀ b, b ∈ bs → ∃ b', b' ∈ bs' ∧ ∀ p, p ∈ b.point → p ∈ b'.point) ∧ (∀ b', b' ∈ bs' → ∃ b, b ∈ bs ∧ ∀ p, p ∈ b.point → p ∈ b'.point) ∧
      bs'.length ≤ bs.length := by
  have mono : ∀ {p q}, Conn S p q → Conn S' p q := by
    intro p q c
    induction c with
    | refl => exact .refl
    | step _ a hr ih => exact ih.step a (sub _ hr)
  have one : ∀ {b b' s}, b ∈ bs → b' ∈ bs' → s ∈ b.point → s ∈ b'.point → ∀ p, p ∈ b.point → p ∈ b'.point := by
    intro b b' s hb hb' h1 h2 p hp
    exact (P'.piece b' hb' s h2 p).2 (mono ((P.piece b hb s h1 p).1 hp))
  have h2 : ∀ b', b' ∈ bs' → ∃ b, b ∈ bs ∧ ∀ p, p ∈ b.point → p ∈ b'.point := by
    intro b' hb'
    obtain ⟨q, hq⟩ := List.exists_mem_of_ne_nil _ (P'.nonempty b' hb')
    obtain ⟨p, hp, c⟩ := near q (P'.mem hb' hq)
    obtain ⟨b, hb, hpb⟩ := P.one hp
    exact ⟨b, hb, one hb hb' hpb ((P'.piece b' hb' q hq p).2 (Conn.symm (sub p hp) c).1)⟩
  refine ⟨fun b hb => ?_, h2, ?_⟩
  · obtain ⟨s, hs⟩ := List.exists_mem_of_ne_nil _ (P.nonempty b hb)
    obtain ⟨b', hb', hs'⟩ := P'.one (sub s (P.mem hb hs))
    exact ⟨b', hb', one hb hb' hs hs'⟩
  · classical
    let F : BlobInfo → BlobInfo := fun b => if h : b ∈ bs' then (h2 b h).choose else b
    have hF : ∀ b, b ∈ bs' → F b ∈ bs ∧ ∀ p, p ∈ (F b).point → p ∈ b.point := by
      intro b hb
      simp only [F, dif_pos hb]
      exact (h2 b hb).choose_spec
    have hn : (bs'.map F).Nodup := by
      refine nodup_map_inj (blobs_nodup P'.nodup P'.nonempty) fun x hx y hy e => ?_
      obtain ⟨s, hs⟩ := List.exists_mem_of_ne_nil _ (P.nonempty _ (hF x hx).1)
      exact P'.same hx hy ((hF x hx).2 s hs) ((hF y hy).2 s (e ▸ hs))
    have := (hn.subperm (l₂ := bs) fun x hx => by
      obtain ⟨b, hb, rfl⟩ := List.mem_map.1 hx
      exact (hF b hb).1).length_le
    rwa [List.length_map] at this

end PV.BlobMove

namespace PV.Props
open PV.Blob PV.BlobMove PV.Laws

/-- C182: the blobs of a mirrored image are the mirrored blobs. -/
theorem C182_flip {m : BMem} {inp out : View} {w h : Nat} (hor ver : Bool) (p : Pair m inp w h out w h) (ci : inp.img.cc = 1) (co : out.img.cc = 1)
    (small : (w + 2) * (h + 2) < 2 ^ 32) (thr : UInt8) :
    ∃ m' bs bs', Flip inp out w h hor ver m = .ok () m' ∧ find inp w h Params.none thr m = .ok bs m ∧ find out w h Params.none thr m' = .ok bs' m' ∧
      Moved (fun q => (out.x + mirror hor w (q.1 - inp.x), out.y + mirror ver h (q.2 - inp.y))) bs bs' := by
  obtain ⟨m', e, W⟩ := C18_flip hor ver p ci co
  obtain ⟨bs, e1, P⟩ := pieces thr ⟨p.wfi, p.fiti⟩ ci small
  obtain ⟨bs', e2, P'⟩ := pieces (m := m') thr ⟨Image.WF.of_size p.wfo W.size_eq, p.fito⟩ co small
  have sh : Shift w h w h (fun q => (mirror hor w q.1, mirror ver h q.2)) (fun q => (mirror hor w q.1, mirror ver h q.2)) := by
    refine ⟨fun q h1 h2 => ⟨mirror_lt h1, mirror_lt h2⟩, fun q h1 h2 => ?_, fun q r h1 h2 h3 h4 n1 n2 => ?_⟩
    · show (mirror hor w (mirror hor w q.1), mirror ver h (mirror ver h q.2)) = q
      rw [mirror_mirror h1, mirror_mirror h2]
    · simp only [Near, mirror] at *
      constructor <;> split <;> omega
  refine ⟨m', bs, bs', e, e1, e2, ?_⟩
  refine moved P P' (move_of sh fun q h1 h2 hv => ?_) (move_of sh fun q h1 h2 hv => ?_)
  · rw [W.inside _ _ 0 (mirror_lt h1) (mirror_lt h2) (by omega), mirror_mirror h1, mirror_mirror h2]
    exact hv
  · rw [W.inside _ _ 0 h1 h2 (by omega)] at hv
    exact hv

/-- C182: the blobs of a transposed image are the transposed blobs. -/
theorem C182_transpose {m : BMem} {inp out : View} {w h : Nat} (p : Pair m inp w h out h w) (ci : inp.img.cc = 1) (co : out.img.cc = 1)
    (small : (w + 2) * (h + 2) < 2 ^ 32) (thr : UInt8) :
    ∃ m' bs bs', Transpose inp out w h m = .ok () m' ∧ find inp w h Params.none thr m = .ok bs m ∧ find out h w Params.none thr m' = .ok bs' m' ∧
      Moved (fun q => (out.x + (q.2 - inp.y), out.y + (q.1 - inp.x))) bs bs' := by
  obtain ⟨m', e, W⟩ := C19_transpose p ci co
  obtain ⟨bs, e1, P⟩ := pieces thr ⟨p.wfi, p.fiti⟩ ci small
  obtain ⟨bs', e2, P'⟩ := pieces (m := m') thr ⟨Image.WF.of_size p.wfo W.size_eq, p.fito⟩ co (by rw [Nat.mul_comm]; exact small)
  have sh : ∀ w h, Shift w h h w (fun q => (q.2, q.1)) (fun q => (q.2, q.1)) := fun w h =>
    ⟨fun q h1 h2 => ⟨h2, h1⟩, fun q h1 h2 => rfl, fun q r h1 h2 h3 h4 n1 n2 => ⟨n2, n1⟩⟩
  refine ⟨m', bs, bs', e, e1, e2, ?_⟩
  refine moved P P' (move_of (sh w h) fun q h1 h2 hv => ?_) (move_of (sh h w) fun q h1 h2 hv => ?_)
  · rw [W.inside _ _ 0 h2 h1 (by omega)]
    exact hv
  · rw [W.inside _ _ 0 h1 h2 (by omega)] at hv
    exact hv

/-- C182: after Threshold every search with a threshold from 1 on finds the blobs of the image at this threshold. -/
theorem C182_threshold {m : BMem} {inp out : View} {w h : Nat} (t thr : UInt8) (r : Ready1 m inp out w h) (ci : inp.img.cc = 1)
    (small : (w + 2) * (h + 2) < 2 ^ 32) (h0 : thr ≠ 0) :
    ∃ m' bs bs', Threshold inp out w h t m = .ok () m' ∧ find inp w h Params.none t m = .ok bs m ∧ find out w h Params.none thr m' = .ok bs' m' ∧
      Moved (fun q => (out.x + (q.1 - inp.x), out.y + (q.2 - inp.y))) bs bs' := by
  obtain ⟨m', e, W⟩ := C14_threshold t r ci
  have co : out.img.cc = 1 := by rw [r.co, ci]
  obtain ⟨bs, e1, P⟩ := pieces t ⟨r.wfi, r.fiti⟩ ci small
  obtain ⟨bs', e2, P'⟩ := pieces (m := m') thr ⟨Image.WF.of_size r.wfo W.size_eq, r.fito⟩ co small
  have sh : Shift w h w h (fun q => (q.1, q.2)) (fun q => (q.1, q.2)) :=
    ⟨fun q h1 h2 => ⟨h1, h2⟩, fun q h1 h2 => rfl, fun q r h1 h2 h3 h4 n1 n2 => ⟨n1, n2⟩⟩
  refine ⟨m', bs, bs', e, e1, e2, ?_⟩
  refine moved P P' (move_of sh fun q h1 h2 hv => ?_) (move_of sh fun q h1 h2 hv => ?_)
  · rw [W.inside _ _ 0 h1 h2 (by omega), if_pos (UInt8.le_iff_toNat_le.1 hv), UInt8.le_iff_toNat_le]
    have := thr.toNat_lt
    show thr.toNat ≤ 255
    omega
  · rw [W.inside _ _ 0 h1 h2 (by omega)] at hv
    rw [UInt8.le_iff_toNat_le] at hv ⊢
    by_contra hc
    rw [if_neg hc] at hv
    exact h0 (UInt8.toNat_inj.1 (by show thr.toNat = 0; exact Nat.le_zero.1 hv))

/-- C182: the sizes of all blobs together are what the histogram has for the values from the threshold on. -/
theorem C182_area {m : BMem} {v : View} {w h : Nat} (o : One m v w h) (cc : v.img.cc = 1) (small : (w + 2) * (h + 2) < 2 ^ 32) (thr : UInt8)
    (vec : List UInt32) :
    ∃ bs hist, find v w h Params.none thr m = .ok bs m ∧ Histogram v w h (m, vec) = .ok () (m, hist) ∧
      (bs.map fun b => b.point.length).sum = ((hist.map UInt32.toNat).drop thr.toNat).sum := by
  obtain ⟨bs, e1, P⟩ := pieces thr o cc small
  obtain ⟨h1, _⟩ := numbers o cc vec
  refine ⟨bs, _, e1, h1, ?_⟩
  rw [counts_toNat o, ← List.map_drop, ← from_range (by have := thr.toNat_lt; omega), sum_counts fun n => decide (thr.toNat ≤ n), ← List.length_flatMap,
    pixels, List.countP_map, List.countP_eq_length_filter]
  have hperm : ((((grid h w).filter ((fun a : UInt8 => decide (thr.toNat ≤ a.toNat)) ∘ fun p => v.get m p.2 p.1 0)).map fun p =>
      (v.x + p.2, v.y + p.1))).Perm (bs.flatMap (·.point)) := by
    refine (List.perm_ext_iff_of_nodup ?_ P.nodup).2 fun q => ?_
    · refine nodup_map_inj ((nodup_grid _ _).filter _) fun a _ b _ hab => ?_
      simp only [Prod.mk.injEq] at hab
      exact Prod.ext (by omega) (by omega)
    · rw [P.all, List.mem_map]
      constructor
      · rintro ⟨p, hp, rfl⟩
        obtain ⟨hg, hv⟩ := List.mem_filter.1 hp
        have := mem_grid.1 hg
        simp only [Function.comp, decide_eq_true_eq] at hv
        refine ⟨by simp, by simp; omega, by simp, by simp; omega, ?_⟩
        rw [UInt8.le_iff_toNat_le]
        simpa using hv
      · rintro ⟨a1, a2, a3, a4, a5⟩
        refine ⟨(q.2 - v.y, q.1 - v.x), List.mem_filter.2 ⟨mem_grid.2 ⟨by simp only; omega, by simp only; omega⟩, ?_⟩, ?_⟩
        · simpa [Function.comp] using UInt8.le_iff_toNat_le.1 a5
        · exact Prod.ext (by simp only; omega) (by simp only; omega)
  rw [← hperm.length_eq, List.length_map]

/-- C182: BinaryDilate loses no blob and makes no new one; blobs grow and may become one. -/
theorem C182_dilate_partial {m : BMem} {v : View} {w h : Nat} (r : Binary m v w h) (hw : 2 * w < 2 ^ 32) (hh : 2 * h < 2 ^ 32)
    (small : (w + 2) * (h + 2) < 2 ^ 32) (dx dy : Nat) (thr : UInt8) (h0 : thr ≠ 0) :
    ∃ m' bs bs', BinaryDilate v w h dx dy m = .ok () m' ∧ find v w h Params.none thr m = .ok bs m ∧ find v w h Params.none thr m' = .ok bs' m' ∧
      (∀ b, b ∈ bs → ∃ b', b' ∈ bs' ∧ ∀ p, p ∈ b.point → p ∈ b'.point) ∧ (∀ b', b' ∈ bs' → ∃ b, b ∈ bs ∧ ∀ p, p ∈ b.point → p ∈ b'.point) ∧
      bs'.length ≤ bs.length := by
  obtain ⟨m', e, t⟩ := dilate_done r hw hh (Or.inr rfl) dx dy
  have r' := binary_of_dilated r t
  obtain ⟨bs, e1, P⟩ := pieces thr ⟨r.wf, r.fit⟩ r.gray small
  obtain ⟨bs', e2, P'⟩ := pieces thr ⟨r'.wf, r'.fit⟩ r'.gray small
  have white : ∀ {a : UInt8}, a = 0 ∨ a = 255 → (thr ≤ a ↔ a = 255) := by
    rintro a (rfl | rfl)
    · constructor
      · intro hle
        exact absurd (UInt8.toNat_inj.1 (by show thr.toNat = 0; exact Nat.le_zero.1 (UInt8.le_iff_toNat_le.1 hle))) h0
      · intro hc
        exact absurd hc (by decide)
    · exact ⟨fun _ => rfl, fun _ => UInt8.le_iff_toNat_le.2 (by have := thr.toNat_lt; show thr.toNat ≤ 255; omega)⟩
  have fg : ∀ p, Fg m v w h thr p ↔ v.x ≤ p.1 ∧ p.1 < v.x + w ∧ v.y ≤ p.2 ∧ p.2 < v.y + h ∧ v.get m (p.1 - v.x) (p.2 - v.y) 0 = 255 := by
    intro p
    refine and_congr_right fun a1 => and_congr_right fun a2 => and_congr_right fun a3 => and_congr_right fun a4 => ?_
    exact white (r.bin _ _ (by omega) (by omega))
  have fg' : ∀ p, Fg m' v w h thr p ↔ v.x ≤ p.1 ∧ p.1 < v.x + w ∧ v.y ≤ p.2 ∧ p.2 < v.y + h ∧ v.get m' (p.1 - v.x) (p.2 - v.y) 0 = 255 := by
    intro p
    refine and_congr_right fun a1 => and_congr_right fun a2 => and_congr_right fun a3 => and_congr_right fun a4 => ?_
    exact white (r'.bin _ _ (by omega) (by omega))
  refine ⟨m', bs, bs', e, e1, e2, grown P P' (fun p hp => ?_) fun q hq => ?_⟩
  · rw [fg] at hp
    rw [fg']
    obtain ⟨a1, a2, a3, a4, a5⟩ := hp
    exact ⟨a1, a2, a3, a4, (t.val _ _ (by omega) (by omega)).2 ⟨_, _, by omega, by omega, Near.self _ _, Near.self _ _, a5⟩⟩
  · rw [fg'] at hq
    obtain ⟨a1, a2, a3, a4, a5⟩ := hq
    obtain ⟨x', y', hx', hy', nx, ny, hv⟩ := (t.val _ _ (by omega) (by omega)).1 a5
    simp only [Near] at nx ny
    refine ⟨(v.x + x', v.y + y'), (fg _).2 ⟨by simp, by simp; omega, by simp, by simp; omega, by simpa using hv⟩, ?_⟩
    refine box_conn (dx := min dx (w / 2)) (dy := min dy (h / 2)) (x0 := v.x) (x1 := v.x + w) (y0 := v.y) (y1 := v.y + h)
      (by simp only; omega) (fun z n1 n2 hz => ?_) _ q (Nat.le_refl _) ?_ ?_ ⟨a1, a2, a3, a4⟩
    · rw [fg']
      simp only [Near] at n1 n2
      refine ⟨hz.1, hz.2.1, hz.2.2.1, hz.2.2.2, (t.val _ _ (by omega) (by omega)).2 ⟨x', y', hx', hy', ?_, ?_, hv⟩⟩
      · simp only [Near]
        omega
      · simp only [Near]
        omega
    · simp only [Near]
      omega
    · simp only [Near]
      omega

/-! ### Concrete cases -/

example := C182_flip true true pair_ex rfl rfl (by decide) 12
example := C182_transpose pair_ex rfl rfl (by decide) 12
example := C182_threshold 12 1 (six_ex.za.ready1 six_ex.zb (by decide)) rfl (by decide) (by decide)
example := C182_area (one_padded 2 (by decide)) rfl (by decide) 22 [7]
example := C182_dilate_partial dot_binary (by decide) (by decide) (by decide) 1 1 255 (by decide)

/-- Number of blobs found after a program -/
def blobsAfter (x : Res BMem Unit) (v : View) (w h : Nat) : Option Nat :=
  match x with
  | .ok _ m =>
    match find v w h Params.none 255 m with
    | .ok bs _ => some bs.length
    | _ => none
  | _ => none

/-- Two dots with an empty column between them become one blob, and erosion removes blobs. -/
example : blobsAfter (.ok () ⟨fun _ => 35, fun _ i => if i = 8 ∨ i = 10 then 255 else 0⟩) dotView 5 5 = some 2 ∧
    blobsAfter (BinaryDilate dotView 5 5 1 0 ⟨fun _ => 35, fun _ i => if i = 8 ∨ i = 10 then 255 else 0⟩) dotView 5 5 = some 1 ∧
    blobsAfter (BinaryErode dotView 5 5 1 0 ⟨fun _ => 35, fun _ i => if i = 8 ∨ i = 10 then 255 else 0⟩) dotView 5 5 = some 0 := by decide +kernel

end PV.Props
