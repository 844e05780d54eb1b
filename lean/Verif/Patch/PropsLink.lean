/-
C67 and C68: in the default layout of the cubed sphere, sides and corners of patches are linked in pairs, and an
exchange over a link brings every halo node the value its owner holds.
-/
import Verif.Patch.CornerLemmas
import Verif.Exchange.Props

namespace Verif.Patch

open Verif.Exchange (Dir Res Setting)
open Verif.Panel (csOpposing IsPanel IsEdge)

/-! ### The lookup as a function of the node -/

/-- Answer of the lookup for one node. -/
def lookAt (N : Int) (boxes : List Box) (pt : Int × Int × Int) : Option Nat :=
  match csPlace N pt.1 pt.2.1 pt.2.2 with
  | none => none
  | some (p, a, b) => scan p a b boxes 0

theorem lookAt_answer {boxes : List Box} (hd : Disjoint boxes) (N p a b : Int) :
    Answer boxes (csPlace N p a b) (lookAt N boxes (p, a, b)) := by
  unfold lookAt
  simp only
  cases csPlace N p a b with
  | none => intro n; simp
  | some r =>
    obtain ⟨p', a', b'⟩ := r
    simp only
    cases hs : scan p' a' b' boxes 0 with
    | none => exact answer_none hd hs
    | some n => exact answer_of_owned hd ((scan_owned hd _ _ _ n).1 hs)

theorem csLoop_map {boxes : List Box} (hd : Disjoint boxes) (N : Int) (pts : List (Int × Int × Int)) :
    csLoop N boxes none pts = pts.map (lookAt N boxes) := by
  obtain ⟨h1, h2⟩ := csLoop_answers hd N pts none
  apply List.ext_getElem?
  intro m
  cases hm : pts[m]? with
  | none =>
    rw [List.getElem?_eq_none_iff] at hm
    rw [List.getElem?_eq_none (by omega), List.getElem?_eq_none (by simpa using hm)]
  | some pt =>
    obtain ⟨p, a, b⟩ := pt
    obtain ⟨ans, e, ha⟩ := h2 m p a b hm
    rw [e, List.getElem?_map, hm, answer_unique ha (lookAt_answer hd N p a b)]
    rfl

theorem lookAt_some {boxes : List Box} (hd : Disjoint boxes) {N p a b q a' b' : Int} (hN : 0 < N) (hp : IsPanel p)
    (hl : Located N p a b (some (q, a', b'))) {m : Nat} (ho : OwnedBy boxes m q a' b') :
    lookAt N boxes (p, a, b) = some m := by
  have h := lookAt_answer hd N p a b
  rw [located_unique (csPlace_located N p a b hN hp) hl] at h
  exact (h m).2 ⟨_, _, _, rfl, ho⟩

theorem lookAt_none {boxes : List Box} (hd : Disjoint boxes) {N p a b : Int} (hN : 0 < N) (hp : IsPanel p)
    (hl : Located N p a b none) : lookAt N boxes (p, a, b) = none := by
  unfold lookAt
  simp only
  rw [located_unique (csPlace_located N p a b hN hp) hl]

/-! ### Boxes of an even layout -/

/-- The boxes of an even layout, in global nodes. -/
structure BoxAt (halo w : Int) (x : Box) (q i j : Int) : Prop where
  panel : x.panel = q
  hh : x.halo = halo
  a0 : x.aGlobalBegin = w * i - halo
  b0 : x.bGlobalBegin = w * j - halo
  ab : x.aInteriorBegin = halo
  ae : x.aInteriorEnd = halo + w
  bb : x.bInteriorBegin = halo
  be : x.bInteriorEnd = halo + w
  wa : x.aInteriorWidth = w
  wb : x.bInteriorWidth = w
  has : ∀ p a b, x.contains p a b = true ↔ p = q ∧ (w * i ≤ a ∧ a < w * i + w) ∧ (w * j ≤ b ∧ b < w * j + w)

theorem csBox_at (halo order res d q i j : Nat) (hd : res % d = 0) :
    BoxAt halo ((order * (res / d) : Nat) : Int) (csBox halo order res d q i j) q i j := by
  unfold csBox
  obtain ⟨⟨h1, -, h2⟩, -, ⟨h3, -, h4, -⟩, ⟨h5, h6⟩, -, ⟨h7, h8, h9, h10⟩, -⟩ :=
    C60_ranges q 0 halo (order * boxBegin res d i : Nat) (order * boxBegin res d (i + 1) : Nat)
      (order * boxBegin res d j : Nat) (order * boxBegin res d (j + 1) : Nat)
  have e : ∀ l : Nat, ((order * boxBegin res d l : Nat) : Int) = ((order * (res / d) : Nat) : Int) * l := by
    intro l; rw [boxBegin_even res d l hd]; push_cast; ring
  have e' : ∀ l : Nat, ((order * (res / d) : Nat) : Int) * ((l + 1 : Nat) : Int) =
      ((order * (res / d) : Nat) : Int) * l + ((order * (res / d) : Nat) : Int) := by
    intro l; push_cast; ring
  simp only [e, e'] at *
  refine ⟨h1, h2, h3, h4, h7, ?_, h9, ?_, ?_, ?_, ?_⟩
  · rw [h8]; omega
  · rw [h10]; omega
  · rw [h5]; omega
  · rw [h6]; omega
  · intro p a b; exact make_contains

/-- What an accepted layout is. -/
structure EvenLayout (halo w d : Int) (boxes : List Box) : Prop where
  w0 : 0 < w
  d0 : 0 < d
  h0 : 0 ≤ halo
  disj : Disjoint boxes
  shape : ∀ (n : Nat) x, boxes[n]? = some x → ∃ q i j, IsPanel q ∧ (0 ≤ i ∧ i < d) ∧ (0 ≤ j ∧ j < d) ∧ BoxAt halo w x q i j
  all : ∀ q i j, IsPanel q → (0 ≤ i ∧ i < d) → (0 ≤ j ∧ j < d) → ∃ (n : Nat) (x : Box), boxes[n]? = some x ∧ BoxAt halo w x q i j

theorem layout_even {rows done halo order res nPatch : Nat} (ho : 0 < order) (hres : 0 < res) {boxes : List Box}
    (hl : csLayout rows done halo order res nPatch = .ok boxes) :
    EvenLayout halo (order * (res / csSplit nPatch) : Nat) (csSplit nPatch) boxes ∧
    ((order * (res / csSplit nPatch) : Nat) : Int) * (csSplit nPatch) = (order : Int) * res := by
  have hdisj := (C25_cubed_sphere rows done halo order res nPatch boxes hl).1
  unfold csLayout at hl
  split_ifs at hl with h1 h2 h3
  simp only [ne_eq, Decidable.not_not] at h2
  cases hl
  have hs : 1 ≤ csSplit nPatch := by unfold csSplit; omega
  have hdvd := Nat.dvd_of_mod_eq_zero h2
  generalize csSplit nPatch = d at *
  have hq : 0 < res / d := Nat.div_pos (Nat.le_of_dvd hres hdvd) (by omega)
  refine ⟨⟨?_, by omega, by omega, hdisj, ?_, ?_⟩, ?_⟩
  · exact Int.natCast_pos.2 (Nat.mul_pos ho hq)
  · intro n x hx
    have hm := List.mem_of_getElem? hx
    unfold csBoxes at hm
    obtain ⟨q, hq, hm⟩ := List.mem_flatMap.1 hm
    obtain ⟨i, hi, hm⟩ := List.mem_flatMap.1 hm
    obtain ⟨j, hj, rfl⟩ := List.mem_map.1 hm
    simp only [List.mem_range] at hq hi hj
    exact ⟨q, i, j, ⟨by omega, by omega⟩, ⟨by omega, by omega⟩, ⟨by omega, by omega⟩, csBox_at halo order res d q i j h2⟩
  · intro q i j hq hi hj
    obtain ⟨hq0, hq5⟩ := hq
    have hm : csBox halo order res d q.toNat i.toNat j.toNat ∈ csBoxes halo order res d := by
      unfold csBoxes
      exact List.mem_flatMap.2 ⟨q.toNat, List.mem_range.2 (by omega), List.mem_flatMap.2 ⟨i.toNat,
        List.mem_range.2 (by omega), List.mem_map.2 ⟨j.toNat, List.mem_range.2 (by omega), rfl⟩⟩⟩
    obtain ⟨n, hn⟩ := List.mem_iff_getElem?.1 hm
    refine ⟨n, _, hn, ?_⟩
    have := csBox_at halo order res d q.toNat i.toNat j.toNat h2
    rw [Int.toNat_of_nonneg hq0, Int.toNat_of_nonneg hi.1, Int.toNat_of_nonneg hj.1] at this
    exact this
  · have : order * (res / d) * d = order * res := by rw [Nat.mul_assoc, Nat.div_mul_cancel hdvd]
    exact_mod_cast this

/-! ### Connections of a patch whose sides each face one patch -/

theorem seg_whole {f : Int × Int × Int → Option Nat} {x : Box} {d : Dir} {m : Nat} (h0 : sideBegin x d < sideEnd x d)
    (hf : ∀ p, sideBegin x d ≤ p → p < sideEnd x d → faces f x d p = some m) (t : Nat) (a b : Int) :
    IsSegment f x d t a b ↔ t = m ∧ a = sideBegin x d ∧ b = sideEnd x d := by
  constructor
  · rintro ⟨h1, h2, h3, h4, h5, h6⟩
    have ht : t = m := by
      have := h4 a (Int.le_refl _) h2
      rw [hf a h1 (by omega)] at this
      cases this; rfl
    subst ht
    refine ⟨rfl, ?_, ?_⟩
    · rcases h5 with h5 | h5
      · exact h5
      · by_contra hne
        exact h5 (hf _ (by omega) (by omega))
    · rcases h6 with h6 | h6
      · exact h6
      · by_contra hne
        exact h6 (hf _ (by omega) (by omega))
  · rintro ⟨rfl, rfl, rfl⟩
    exact ⟨Int.le_refl _, h0, Int.le_refl _, hf, Or.inl rfl, Or.inl rfl⟩

theorem diag_whole {f : Int × Int × Int → Option Nat} {x : Box} {c : Dir} (hc : c.Corner)
    (hA : x.aInteriorBegin < x.aInteriorEnd) (hB : x.bInteriorBegin < x.bInteriorEnd)
    (hf : ∀ e : Dir, e.Edge → ∃ m, ∀ p, sideBegin x e ≤ p → p < sideEnd x e → faces f x e p = some m) (t : Nat) (i j : Int) :
    IsDiagonal f x c t i j ↔ (i, j) = cornerOf x c ∧
      atNode f x ((cornerOf x c).1 + (diagonalStep c).1) ((cornerOf x c).2 + (diagonalStep c).2) = some t := by
  obtain ⟨mr, hr⟩ := hf .right (by simp [Dir.Edge])
  obtain ⟨ml, hl⟩ := hf .left (by simp [Dir.Edge])
  obtain ⟨mt, ht⟩ := hf .top (by simp [Dir.Edge])
  obtain ⟨mb, hb⟩ := hf .bottom (by simp [Dir.Edge])
  simp only [sideBegin, sideEnd, faces, facing] at hr hl ht hb
  constructor
  · rintro ⟨h1, h2, h3, h4⟩
    have key : (i, j) = cornerOf x c := by
      rcases h4 with ⟨g1, g2⟩ | ⟨g1, g2⟩ | ⟨g1, g2⟩
      · rcases hc with rfl | rfl | rfl | rfl <;>
          simp only [InteriorNode, diagonalStep, cornerOf, Prod.mk.injEq] at * <;> omega
      · exfalso
        apply g2
        rw [← h3]
        rcases hc with rfl | rfl | rfl | rfl <;> simp only [InteriorNode, diagonalStep] at *
        · rw [show j + 1 = x.bInteriorEnd by omega, ht i (by omega) (by omega), ht (i + 1) (by omega) (by omega)]
        · rw [show j + 1 = x.bInteriorEnd by omega, ht i (by omega) (by omega), ht (i + -1) (by omega) (by omega)]
        · rw [show j + -1 = x.bInteriorBegin - 1 by omega, hb i (by omega) (by omega), hb (i + -1) (by omega) (by omega)]
        · rw [show j + -1 = x.bInteriorBegin - 1 by omega, hb i (by omega) (by omega), hb (i + 1) (by omega) (by omega)]
      · exfalso
        apply g2
        rw [← h3]
        rcases hc with rfl | rfl | rfl | rfl <;> simp only [InteriorNode, diagonalStep] at *
        · rw [show i + 1 = x.aInteriorEnd by omega, hr j (by omega) (by omega), hr (j + 1) (by omega) (by omega)]
        · rw [show i + -1 = x.aInteriorBegin - 1 by omega, hl j (by omega) (by omega), hl (j + 1) (by omega) (by omega)]
        · rw [show i + -1 = x.aInteriorBegin - 1 by omega, hl j (by omega) (by omega), hl (j + -1) (by omega) (by omega)]
        · rw [show i + 1 = x.aInteriorEnd by omega, hr j (by omega) (by omega), hr (j + -1) (by omega) (by omega)]
    refine ⟨key, ?_⟩
    rw [← key]
    exact h3
  · rintro ⟨h1, h2⟩
    rw [← h1] at h2
    refine ⟨?_, ?_, h2, Or.inl ?_⟩ <;> rcases hc with rfl | rfl | rfl | rfl <;>
      simp only [InteriorNode, diagonalStep, cornerOf, Prod.mk.injEq] at * <;> omega

/-! ### Links of an even layout -/

theorem connections_at {halo w d : Int} {boxes : List Box} (E : EvenLayout halo w d boxes) {order res : Nat}
    (hN : w * d = (order : Int) * res) (ratio : Int) {n : Nat} {x : Box} (hx : boxes[n]? = some x) :
    ∃ regs, connections (csLookup order res ratio boxes 0) x = .ok regs ∧
      ∀ r, r ∈ regs ↔ Wanted (lookAt (w * d) boxes) x r := by
  obtain ⟨q, i, j, -, -, -, B⟩ := E.shape n x hx
  have hw := E.w0
  obtain ⟨regs, h1, -, h2⟩ := C24_exact (csLookup order res ratio boxes 0) (lookAt (w * d) boxes) x
    (by rw [B.wa]; omega) (by rw [B.wb]; omega) (by
      unfold csLookup localResolution intPow
      rw [if_neg (by omega), if_pos (by decide : Int.toNat 0 = 0), mul_one, ← hN, csLoop_map E.disj])
  exact ⟨regs, h1, h2⟩

theorem faces_at {halo w : Int} {x : Box} {q i j : Int} (B : BoxAt halo w x q i j) (f : Int × Int × Int → Option Nat)
    {e : Dir} (he : IsEdge e) (p : Int) :
    faces f x e p = f (q, haloG w i j e 0 (p - halo)) := by
  unfold faces atNode facing
  rw [B.panel, B.a0, B.b0, B.ab, B.ae, B.bb, B.be]
  rcases he with rfl | rfl | rfl | rfl <;> simp only [haloG] <;> congr 3 <;> omega

theorem side_at {halo w : Int} {x : Box} {q i j : Int} (B : BoxAt halo w x q i j) (e : Dir) :
    sideBegin x e = halo ∧ sideEnd x e = halo + w := by
  unfold sideBegin sideEnd
  rw [B.ab, B.ae, B.bb, B.be]
  cases e <;> simp

theorem has_int {halo w : Int} {y : Box} {q i j : Int} (B : BoxAt halo w y q i j) {e : Dir} (he : IsEdge e) {k t : Int}
    (k0 : 0 ≤ k) (k1 : k < w) (t0 : 0 ≤ t) (t1 : t < w) :
    y.contains q (intG w i j e k t).1 (intG w i j e k t).2 = true := by
  rw [B.has]
  rcases he with rfl | rfl | rfl | rfl <;> simp only [intG] <;> refine ⟨trivial, ⟨?_, ?_⟩, ?_, ?_⟩ <;> omega

theorem faces_some {halo w d : Int} {boxes : List Box} (E : EvenLayout halo w d boxes) {x : Box} {q i j : Int}
    (hq : IsPanel q) (B : BoxAt halo w x q i j) {e e' : Dir} (he : IsEdge e) (he' : IsEdge e') {rev : Bool}
    {m : Nat} {y : Box} {q' i' j' : Int} (hy : boxes[m]? = some y) (B' : BoxAt halo w y q' i' j')
    (h : ∀ k t, 0 ≤ k → k < w → 0 ≤ t → t < w → Located (w * d) q (haloG w i j e k t).1 (haloG w i j e k t).2
        (some (q', intG w i' j' e' k (if rev then w - 1 - t else t))))
    (p : Int) (p0 : sideBegin x e ≤ p) (p1 : p < sideEnd x e) : faces (lookAt (w * d) boxes) x e p = some m := by
  have hw := E.w0
  rw [(side_at B e).1] at p0
  rw [(side_at B e).2] at p1
  rw [faces_at B _ he]
  refine lookAt_some E.disj (Int.mul_pos E.w0 E.d0) hq (h 0 (p - halo) (by omega) (by omega) (by omega) (by omega)) ?_
  have hs : 0 ≤ (if rev then w - 1 - (p - halo) else p - halo) ∧ (if rev then w - 1 - (p - halo) else p - halo) < w := by
    cases rev <;> simp <;> omega
  exact ⟨y, hy, has_int B' he' (by omega) (by omega) hs.1 hs.2⟩

theorem edge_iff (e : Dir) : e.Edge ↔ IsEdge e := Iff.rfl

theorem out_of_faces {halo w d : Int} {boxes : List Box} (E : EvenLayout halo w d boxes) {order res : Nat}
    (hN : w * d = (order : Int) * res) (ratio : Int) {n : Nat} {x : Box} (hx : boxes[n]? = some x) {e : Dir}
    (he : IsEdge e) {m : Nat}
    (hf : ∀ p, sideBegin x e ≤ p → p < sideEnd x e → faces (lookAt (w * d) boxes) x e p = some m) :
    ∃ regs, connections (csLookup order res ratio boxes 0) x = .ok regs ∧
      ∀ r : Reg, r.dir = e → (r ∈ regs ↔ r = ⟨m, e, sideBegin x e, sideEnd x e⟩) := by
  obtain ⟨q, i, j, -, -, -, B⟩ := E.shape n x hx
  obtain ⟨regs, h1, h2⟩ := connections_at E hN ratio hx
  refine ⟨regs, h1, ?_⟩
  intro r hr
  rw [h2]
  obtain ⟨t, e', a, b⟩ := r
  simp only at hr
  subst hr
  have hlt : sideBegin x e' < sideEnd x e' := by rw [(side_at B e').1, (side_at B e').2]; have := E.w0; omega
  have hs := seg_whole hlt hf t a b
  unfold Wanted
  simp only [Reg.mk.injEq, true_and]
  rcases he with rfl | rfl | rfl | rfl <;> exact hs

theorem box_index {halo w d : Int} {boxes : List Box} (E : EvenLayout halo w d boxes) {n m : Nat} {x y : Box} {q i j : Int}
    (hx : boxes[n]? = some x) (hy : boxes[m]? = some y) (B : BoxAt halo w x q i j) (B' : BoxAt halo w y q i j) : n = m := by
  have hw := E.w0
  apply E.disj n m q (w * i) (w * j)
  · exact ⟨x, hx, (B.has _ _ _).2 ⟨rfl, ⟨by omega, by omega⟩, by omega, by omega⟩⟩
  · exact ⟨y, hy, (B'.has _ _ _).2 ⟨rfl, ⟨by omega, by omega⟩, by omega, by omega⟩⟩

theorem side_step {halo w d : Int} {boxes : List Box} (E : EvenLayout halo w d boxes) {order res : Nat}
    (hN : w * d = (order : Int) * res) (ratio : Int) {n : Nat} {x : Box} (hx : boxes[n]? = some x) {e : Dir}
    (he : IsEdge e) :
    ∃ m y e' rev q i j q' i' j', SideLink (csLookup order res ratio boxes 0) boxes n x e m y e' rev ∧ IsPanel q ∧
      BoxAt halo w x q i j ∧ BoxAt halo w y q' i' j' ∧
      ∀ k t, 0 ≤ k → k < w → 0 ≤ t → t < w → Located (w * d) q (haloG w i j e k t).1 (haloG w i j e k t).2
        (some (q', intG w i' j' e' k (if rev then w - 1 - t else t))) := by
  obtain ⟨q, i, j, hq, hi, hj, B⟩ := E.shape n x hx
  obtain ⟨q', i', j', e', rev, hq', hi', hj', he', o1, o2, l1, l2⟩ := edge_core w d E.w0 q i j hq hi hj e he
  obtain ⟨m, y, hy, B'⟩ := E.all q' i' j' hq' hi' hj'
  refine ⟨m, y, e', rev, q, i, j, q', i', j', ⟨hx, hy, he, he', ?_, ?_, ?_, ?_⟩, hq, B, B', l1⟩
  · exact out_of_faces E hN ratio hx he (faces_some E hq B he he' hy B' l1)
  · exact out_of_faces E hN ratio hy he' (faces_some E hq' B' he' he hx B l2)
  · rw [B.panel, B'.panel]; exact o1
  · rw [B.panel, B'.panel]; exact o2

theorem link_unique {lookup : List (Int × Int × Int) → Res (List (Option Nat))} {boxes : List Box} {n : Nat} {x : Box} {e : Dir}
    {m m' : Nat} {y y' : Box} {e₁ e₂ : Dir} {r₁ r₂ : Bool} (h : SideLink lookup boxes n x e m y e₁ r₁)
    (h' : SideLink lookup boxes n x e m' y' e₂ r₂) : m = m' ∧ y = y' ∧ e₁ = e₂ ∧ r₁ = r₂ := by
  obtain ⟨regs, c1, c2⟩ := h.out
  obtain ⟨regs', c1', c2'⟩ := h'.out
  rw [c1] at c1'; cases c1'
  have := (c2' ⟨m, e, sideBegin x e, sideEnd x e⟩ rfl).1 ((c2 _ rfl).2 rfl)
  simp only [Reg.mk.injEq, and_true] at this
  subst this
  have hy := h.target
  rw [h'.target] at hy
  cases hy
  obtain ⟨f, o⟩ := h.opposing
  obtain ⟨f', o'⟩ := h'.opposing
  rw [o] at o'
  simp only [Option.some.injEq, Prod.mk.injEq] at o'
  exact ⟨rfl, rfl, o'.1, o'.2.1⟩

/-! ### C67 -/

/-- **C67 (links).**  In every accepted default layout of the cubed sphere, every side of every patch is linked to
exactly one side of exactly one patch, and the link is the same seen from the other end. -/
theorem C67_links (rows done halo order res nPatch : Nat) (ho : 0 < order) (hres : 0 < res) (boxes : List Box)
    (hl : csLayout rows done halo order res nPatch = .ok boxes) (ratio : Int) (n : Nat) (x : Box)
    (hx : boxes[n]? = some x) (d : Dir) (hd : d.Edge) :
    ∃ m y d' rev, SideLink (csLookup order res ratio boxes 0) boxes n x d m y d' rev ∧
      SideLink (csLookup order res ratio boxes 0) boxes m y d' n x d rev ∧
      ∀ m₁ y₁ d₁ rev₁, SideLink (csLookup order res ratio boxes 0) boxes n x d m₁ y₁ d₁ rev₁ →
        m₁ = m ∧ y₁ = y ∧ d₁ = d' ∧ rev₁ = rev := by
  obtain ⟨E, hN⟩ := layout_even ho hres hl
  obtain ⟨m, y, e', rev, -, -, -, -, -, -, L, -⟩ := side_step E hN ratio hx hd
  exact ⟨m, y, e', rev, L, ⟨L.target, L.source, L.edge', L.edge, L.back, L.out, L.opposing', L.opposing⟩,
    fun m₁ y₁ d₁ rev₁ h => link_unique h L⟩

/-- Straight halo nodes are the edge halo nodes of the exchange. -/
theorem straight_nodes {halo w : Nat} {x : Box} {q i j : Int} (B : BoxAt halo w x q i j) {e : Dir} (he : IsEdge e) (u v : Int) :
    StraightHalo x e u v ↔ ∃ k t : Nat, k < halo ∧ t < w ∧
      (u, v) = Exchange.edgeHalo e (w + 2 * halo) (w + 2 * halo) halo halo k t := by
  constructor
  · intro h
    rcases he with rfl | rfl | rfl | rfl <;> simp only [StraightHalo, B.ab, B.ae, B.bb, B.be, B.hh] at h
    · refine ⟨(u - (halo + w)).toNat, (v - halo).toNat, by omega, by omega, ?_⟩
      simp only [Exchange.edgeHalo, Prod.mk.injEq]; omega
    · refine ⟨(v - (halo + w)).toNat, (u - halo).toNat, by omega, by omega, ?_⟩
      simp only [Exchange.edgeHalo, Prod.mk.injEq]; omega
    · refine ⟨(halo - 1 - u).toNat, (v - halo).toNat, by omega, by omega, ?_⟩
      simp only [Exchange.edgeHalo, Prod.mk.injEq]; omega
    · refine ⟨(halo - 1 - v).toNat, (u - halo).toNat, by omega, by omega, ?_⟩
      simp only [Exchange.edgeHalo, Prod.mk.injEq]; omega
  · rintro ⟨k, t, hk, ht, h⟩
    rcases he with rfl | rfl | rfl | rfl <;> simp only [StraightHalo, B.ab, B.ae, B.bb, B.be, B.hh, Exchange.edgeHalo,
      Prod.mk.injEq] at h ⊢ <;> omega

theorem halo_global {halo w : Nat} {x : Box} {q i j : Int} (B : BoxAt halo w x q i j) {e : Dir} (he : IsEdge e) (k t : Nat) :
    (x.aGlobalBegin + (Exchange.edgeHalo e (w + 2 * halo) (w + 2 * halo) halo halo k t).1,
      x.bGlobalBegin + (Exchange.edgeHalo e (w + 2 * halo) (w + 2 * halo) halo halo k t).2) = haloG w i j e k t := by
  rw [B.a0, B.b0]
  rcases he with rfl | rfl | rfl | rfl <;> simp only [Exchange.edgeHalo, haloG, Prod.mk.injEq] <;> push_cast <;> omega

theorem int_global {halo w : Nat} {x : Box} {q i j : Int} (B : BoxAt halo w x q i j) {e : Dir} (he : IsEdge e) (k t : Nat) :
    Exchange.edgeInterior e (w + 2 * halo) (w + 2 * halo) halo halo k t =
    ((intG w i j e k t).1 - x.aGlobalBegin, (intG w i j e k t).2 - x.bGlobalBegin) := by
  rw [B.a0, B.b0]
  rcases he with rfl | rfl | rfl | rfl <;> simp only [Exchange.edgeInterior, intG, Prod.mk.injEq] <;> push_cast <;> omega

/-- Extent of the arrays in the slots of a patch. -/
theorem slot_size {α : Type} {s : Setting} {p : Exchange.Patch α} (h : Exchange.Sized s p) {sl : Exchange.Slot} {f : Exchange.Field α}
    (hf : p.get? sl = some f) : f.sA = s.widthA + 2 * s.halo ∧ f.sB = s.widthB + 2 * s.halo := by
  cases sl with
  | stateNode ix c =>
    simp only [Exchange.Patch.get?, Option.bind_eq_some_iff, Exchange.Field4.get?] at hf
    obtain ⟨g, h1, h2⟩ := hf
    have := h.stateNode g (List.mem_of_getElem? h1)
    split at h2 <;> cases h2
    exact ⟨this.2.2.2.1, this.2.2.2.2.1⟩
  | stateREdge ix c =>
    simp only [Exchange.Patch.get?, Option.bind_eq_some_iff, Exchange.Field4.get?] at hf
    obtain ⟨g, h1, h2⟩ := hf
    have := h.stateREdge g (List.mem_of_getElem? h1)
    split at h2 <;> cases h2
    exact ⟨this.2.2.2.1, this.2.2.2.2.1⟩
  | tracers ix c =>
    simp only [Exchange.Patch.get?, Option.bind_eq_some_iff, Exchange.Field4.get?] at hf
    obtain ⟨g, h1, h2⟩ := hf
    have := h.tracers g (List.mem_of_getElem? h1)
    split at h2 <;> cases h2
    exact ⟨this.2.2.2.1, this.2.2.2.2.1⟩
  | vorticity => cases hf; have := h.fields p.vorticity (by simp); exact ⟨this.1, this.2.1⟩
  | divergence => cases hf; have := h.fields p.divergence (by simp); exact ⟨this.1, this.2.1⟩
  | temperature => cases hf; have := h.fields p.temperature (by simp); exact ⟨this.1, this.2.1⟩
  | richardson => cases hf; have := h.fields p.richardson (by simp); exact ⟨this.1, this.2.1⟩
  | topographyDeriv => cases hf; exact ⟨h.topo.1, h.topo.2.1⟩

/-- **C67 (delivery).**  An exchange over a link fills every halo node straight outside the side, in every array
concerned, with the value the other patch holds at the node of the sphere that halo node stands for (and that patch
owns it); no other value changes.  The halo must not be wider than a patch. -/
theorem C67_delivered {α : Type} (rows done halo order res nPatch : Nat) (ho : 0 < order) (hres : 0 < res) (boxes : List Box)
    (hl : csLayout rows done halo order res nPatch = .ok boxes) (hh : halo ≤ order * (res / csSplit nPatch)) (ratio : Int)
    (n : Nat) (x : Box) (d : Dir) (m : Nat) (y : Box) (d' : Dir) (rev : Bool)
    (link : SideLink (csLookup order res ratio boxes 0) boxes n x d m y d' rev)
    (sS sT : Setting) (hsS : SettingOf sS y) (hsT : SettingOf sT x) (same : Exchange.SameRun sS sT)
    (hn : Exchange.NonTrivial sS) (varLoc : Nat → Exchange.Loc) (junkS junkT : Nat → α) (t : Exchange.XType) (ix : Nat)
    (pS pT : Exchange.Patch α) (hpS : Exchange.Sized sS pS) (hpT : Exchange.Sized sT pT)
    (hIS : Exchange.HasInstance pS t ix) (hIT : Exchange.HasInstance pT t ix) :
    ∃ eS eT p', Exchange.exchangePair varLoc junkS junkT sS pS d' d rev (sideBegin y d') (sideEnd y d')
        sT pT d d' rev (sideBegin x d) (sideEnd x d) t ix = .ok (eS, eT, p') ∧
      (∀ s f g, Exchange.Concerned varLoc t ix s → pS.get? s = some f → pT.get? s = some g →
        ∃ g', p'.get? s = some g' ∧
          (∀ i j, StraightHalo x d i j → ∃ a b, PlaceOf (order * res) x i j (some (y.panel, a, b)) ∧
            y.contains y.panel a b = true ∧
            ∀ k < g.sR, g'.val i j k = f.val (a - y.aGlobalBegin) (b - y.bGlobalBegin) k) ∧
          ∀ i j k, ¬ StraightHalo x d i j → g'.val i j k = g.val i j k) ∧
      ∀ s, ¬ Exchange.Concerned varLoc t ix s → p'.get? s = pT.get? s := by
  obtain ⟨E, hN⟩ := layout_even ho hres hl
  have he := link.edge
  have he' := link.edge'
  obtain ⟨m₁, y₁, e₁, r₁, q, i, j, q', i', j', L, hq, B, B', hloc⟩ := side_step E hN ratio link.source he
  obtain ⟨rfl, rfl, rfl, rfl⟩ := link_unique link L
  rw [hN] at hloc
  generalize order * (res / csSplit nPatch) = w at *
  obtain ⟨s1, s2, s3⟩ := hsS
  obtain ⟨t1, t2, t3⟩ := hsT
  rw [B'.hh] at s1; rw [B'.wa] at s2; rw [B'.wb] at s3
  rw [B.hh] at t1; rw [B.wa] at t2; rw [B.wb] at t3
  have hw : (0 : Int) < w := E.w0
  have fits : ∀ (s : Setting) (e : Dir), e.Edge → (s.halo : Int) = halo → (s.widthA : Int) = w → (s.widthB : Int) = w →
      Exchange.Fits s ⟨e, halo, halo + w, s.halo, rev⟩ := by
    intro s e he h1 h2 h3
    rcases he with rfl | rfl | rfl | rfl <;> simp only [Exchange.Fits] <;> omega
  obtain ⟨eS, eT, p', h1, h2, h3, -⟩ := Exchange.C19_edge_exchange sS sT same hn ⟨d', halo, halo + w, sS.halo, rev⟩
    ⟨d, halo, halo + w, sT.halo, rev⟩ d d' he' he rfl rfl (fits sS d' he' s1 s2 s3) (fits sT d he t1 t2 t3) rfl
    varLoc junkS junkT t ix pS pT hpS hpT hIS hIT
  rw [(side_at B d).1, (side_at B d).2, (side_at B' d').1, (side_at B' d').2]
  refine ⟨eS, eT, p', h1, ?_, h3⟩
  intro s f g hc hf hg
  obtain ⟨g', hg', D⟩ := h2 s f g hc hf hg
  refine ⟨g', hg', ?_, ?_⟩
  · intro u v huv
    obtain ⟨k, tt, hk, ht, huv⟩ := (straight_nodes B he u v).1 huv
    have hk' : k < sT.halo := by omega
    have hlen : ∀ (e : Dir) (h : Nat), (⟨e, halo, halo + w, h, rev⟩ : Exchange.Conn).len = w := by
      intro e h; simp [Exchange.Conn.len]
    have hgS := slot_size hpT hg
    have hfS := slot_size hpS hf
    rw [show sT.widthA = w by omega, show sT.widthB = w by omega, show sT.halo = halo by omega] at hgS
    rw [show sS.widthA = w by omega, show sS.widthB = w by omega, show sS.halo = halo by omega] at hfS
    have hv := fun kk hkk => D.halo k tt kk hk' (by rw [hlen]; exact ht) hkk
    simp only [hlen, hgS.1, hgS.2, hfS.1, hfS.2, show sS.halo = halo by omega, show sT.halo = halo by omega] at hv
    have hst : (((if rev then w - 1 - tt else tt : Nat)) : Int) = if rev then (w : Int) - 1 - tt else tt := by
      cases rev <;> simp <;> omega
    have hst' : (if rev then w - 1 - tt else tt) < w := by cases rev <;> simp <;> omega
    rw [int_global B' he' k (if rev then w - 1 - tt else tt)] at hv
    refine ⟨(intG w i' j' d' k (if rev then (w : Int) - 1 - tt else tt)).1,
      (intG w i' j' d' k (if rev then (w : Int) - 1 - tt else tt)).2, ?_, ?_, ?_⟩
    · have hg := halo_global B he k tt
      rw [← huv] at hg
      have g1 := congrArg Prod.fst hg
      have g2 := congrArg Prod.snd hg
      simp only at g1 g2
      unfold PlaceOf
      rw [B.panel, B'.panel, g1, g2]
      exact hloc k tt (by omega) (by omega) (by omega) (by omega)
    · rw [B'.panel, ← hst]
      exact has_int B' he' (by omega) (by omega) (by omega) (by omega)
    · intro kk hkk
      have := hv kk hkk
      rw [← huv, hst] at this
      exact this
  · intro u v k huv
    apply D.rest
    intro a b ha hb he2
    apply huv
    refine (straight_nodes B he u v).2 ⟨a, b, ?_, ?_, ?_⟩
    · simp only at ha; omega
    · simpa [Exchange.Conn.len] using hb
    · have hgS := slot_size hpT hg
      rw [show sT.widthA = w by omega, show sT.widthB = w by omega, show sT.halo = halo by omega] at hgS
      simp only [hgS.1, hgS.2, show sT.halo = halo by omega] at he2
      exact he2

/-! ### Corners -/

theorem corner_at {halo w : Int} {x : Box} {q i j : Int} (B : BoxAt halo w x q i j) (f : Int × Int × Int → Option Nat)
    {c : Dir} (hc : c.Corner) :
    atNode f x ((cornerOf x c).1 + (diagonalStep c).1) ((cornerOf x c).2 + (diagonalStep c).2) = f (q, cHaloG w i j c 0 0) := by
  unfold atNode
  rw [B.panel, B.a0, B.b0]
  rcases hc with rfl | rfl | rfl | rfl <;> simp only [cornerOf, diagonalStep, cHaloG, B.ab, B.ae, B.bb, B.be] <;>
    congr 3 <;> omega

theorem has_cint {halo w : Int} {y : Box} {q i j : Int} (B : BoxAt halo w y q i j) {c : Dir} (hc : c.Corner) {u v : Int}
    (u0 : 0 ≤ u) (u1 : u < w) (v0 : 0 ≤ v) (v1 : v < w) :
    y.contains q (cIntG w i j c u v).1 (cIntG w i j c u v).2 = true := by
  rw [B.has]
  rcases hc with rfl | rfl | rfl | rfl <;> simp only [cIntG] <;> refine ⟨trivial, ⟨?_, ?_⟩, ?_, ?_⟩ <;> omega

theorem sides_face {halo w d : Int} {boxes : List Box} (E : EvenLayout halo w d boxes) {n : Nat} {x : Box}
    (hx : boxes[n]? = some x) (e : Dir) (he : e.Edge) :
    ∃ m, ∀ p, sideBegin x e ≤ p → p < sideEnd x e → faces (lookAt (w * d) boxes) x e p = some m := by
  obtain ⟨q, i, j, hq, hi, hj, B⟩ := E.shape n x hx
  obtain ⟨q', i', j', e', rev, hq', hi', hj', he', o1, o2, l1, l2⟩ := edge_core w d E.w0 q i j hq hi hj e he
  obtain ⟨m, y, hy, B'⟩ := E.all q' i' j' hq' hi' hj'
  exact ⟨m, faces_some E hq B he he' hy B' l1⟩

theorem corner_regs {halo w d : Int} {boxes : List Box} (E : EvenLayout halo w d boxes) {order res : Nat}
    (hN : w * d = (order : Int) * res) (ratio : Int) {n : Nat} {x : Box} (hx : boxes[n]? = some x) {q i j : Int}
    (B : BoxAt halo w x q i j) {c : Dir} (hc : c.Corner) :
    ∃ regs, connections (csLookup order res ratio boxes 0) x = .ok regs ∧
      ∀ r : Reg, r.dir = c → (r ∈ regs ↔ (r.first, r.second) = cornerOf x c ∧
        lookAt (w * d) boxes (q, cHaloG w i j c 0 0) = some r.target) := by
  obtain ⟨regs, h1, h2⟩ := connections_at E hN ratio hx
  refine ⟨regs, h1, ?_⟩
  intro r hr
  rw [h2]
  have hw := E.w0
  have := diag_whole hc (by rw [B.ab, B.ae]; omega) (by rw [B.bb, B.be]; omega) (sides_face E hx) r.target r.first r.second
  rw [corner_at B _ hc] at this
  rw [← this]
  unfold Wanted
  rw [hr]
  rcases hc with rfl | rfl | rfl | rfl <;> exact Iff.rfl

theorem corner_out {halo w d : Int} {boxes : List Box} (E : EvenLayout halo w d boxes) {order res : Nat}
    (hN : w * d = (order : Int) * res) (ratio : Int) {n : Nat} {x : Box} (hx : boxes[n]? = some x) {q i j : Int}
    (B : BoxAt halo w x q i j) {c : Dir} (hc : c.Corner) {m : Nat}
    (hl : lookAt (w * d) boxes (q, cHaloG w i j c 0 0) = some m) :
    ∃ regs, connections (csLookup order res ratio boxes 0) x = .ok regs ∧
      ∀ r : Reg, r.dir = c → (r ∈ regs ↔ r = ⟨m, c, (cornerOf x c).1, (cornerOf x c).2⟩) := by
  obtain ⟨regs, h1, h2⟩ := corner_regs E hN ratio hx B hc
  refine ⟨regs, h1, ?_⟩
  intro r hr
  rw [h2 r hr, hl]
  obtain ⟨t, e, a, b⟩ := r
  simp only at hr
  subst hr
  generalize cornerOf x e = k
  obtain ⟨k1, k2⟩ := k
  simp only [Prod.mk.injEq, Option.some.injEq, Reg.mk.injEq, true_and]
  tauto

theorem corner_step {halo w d : Int} {boxes : List Box} (E : EvenLayout halo w d boxes) {order res : Nat}
    (hN : w * d = (order : Int) * res) (ratio : Int) {n : Nat} {x : Box} (hx : boxes[n]? = some x) {c : Dir}
    (hc : c.Corner) :
    ∃ q i j, IsPanel q ∧ BoxAt halo w x q i j ∧
    (((∀ u v, 0 ≤ u → 0 ≤ v → Located (w * d) q (cHaloG w i j c u v).1 (cHaloG w i j c u v).2 none) ∧
      ∃ regs, connections (csLookup order res ratio boxes 0) x = .ok regs ∧ ∀ r ∈ regs, r.dir ≠ c) ∨
    ∃ m y c' rev swap q' i' j', CornerLink (csLookup order res ratio boxes 0) boxes n x c m y c' rev ∧
      BoxAt halo w y q' i' j' ∧ ((q, q') ∈ transposedPairs ↔ swap ≠ rev) ∧
      ∀ u v, 0 ≤ u → u < w → 0 ≤ v → v < w → Located (w * d) q (cHaloG w i j c u v).1 (cHaloG w i j c u v).2
        (some (q', cIntG w i' j' c' (if swap then v else u) (if swap then u else v)))) := by
  obtain ⟨q, i, j, hq, hi, hj, B⟩ := E.shape n x hx
  have hw := E.w0
  have hNp := Int.mul_pos E.w0 E.d0
  refine ⟨q, i, j, hq, B, ?_⟩
  rcases corner_core w d E.w0 q i j hq hi hj c hc with hnone | ⟨q', i', j', c', rev, swap, S, hc', ht, -⟩
  · left
    refine ⟨hnone, ?_⟩
    obtain ⟨regs, h1, h2⟩ := corner_regs E hN ratio hx B hc
    refine ⟨regs, h1, ?_⟩
    intro r hr he
    have := ((h2 r he).1 hr).2
    rw [lookAt_none E.disj hNp hq (hnone 0 0 (by omega) (by omega))] at this
    cases this
  · right
    obtain ⟨m, y, hy, B'⟩ := E.all q' i' j' S.panel S.hi S.hj
    have z : (0 : Int) < w := hw
    refine ⟨m, y, c', rev, swap, q', i', j', ⟨hx, hy, hc, hc', ?_, ?_, ?_, ?_⟩, B', ht, S.forth⟩
    · apply corner_out E hN ratio hx B hc
      refine lookAt_some E.disj hNp hq (S.forth 0 0 (by omega) (by omega) (by omega) (by omega)) ⟨y, hy, ?_⟩
      apply has_cint B' hc' <;> cases swap <;> simp <;> omega
    · apply corner_out E hN ratio hy B' hc'
      refine lookAt_some E.disj hNp S.panel (S.back 0 0 (by omega) (by omega) (by omega) (by omega)) ⟨x, hx, ?_⟩
      apply has_cint B hc <;> cases swap <;> simp <;> omega
    · rw [B.panel, B'.panel]; exact S.opp
    · rw [B.panel, B'.panel]; exact S.opp'

theorem cornerLink_unique {lookup : List (Int × Int × Int) → Res (List (Option Nat))} {boxes : List Box} {n : Nat} {x : Box} {c : Dir}
    {m m' : Nat} {y y' : Box} {c₁ c₂ : Dir} {r₁ r₂ : Bool} (h : CornerLink lookup boxes n x c m y c₁ r₁)
    (h' : CornerLink lookup boxes n x c m' y' c₂ r₂) : m = m' ∧ y = y' ∧ c₁ = c₂ ∧ r₁ = r₂ := by
  obtain ⟨regs, e1, e2⟩ := h.out
  obtain ⟨regs', e1', e2'⟩ := h'.out
  rw [e1] at e1'; cases e1'
  have := (e2' _ rfl).1 ((e2 _ rfl).2 rfl)
  simp only [Reg.mk.injEq, and_true] at this
  subst this
  have hy := h.target
  rw [h'.target] at hy
  cases hy
  obtain ⟨f, o⟩ := h.opposing
  obtain ⟨f', o'⟩ := h'.opposing
  rw [o] at o'
  simp only [Option.some.injEq, Prod.mk.injEq] at o'
  exact ⟨rfl, rfl, o'.1, o'.2.1⟩

/-- Diagonal halo nodes are the corner halo nodes of the exchange. -/
theorem diagonal_nodes {halo w : Nat} {x : Box} {q i j : Int} (B : BoxAt halo w x q i j) {c : Dir} (hc : c.Corner) (a b : Int) :
    DiagonalHalo x c a b ↔ ∃ u v : Nat, u < halo ∧ v < halo ∧
      (a, b) = Exchange.cornerHalo c (cornerOf x c).1 (cornerOf x c).2 u v := by
  constructor
  · intro h
    rcases hc with rfl | rfl | rfl | rfl <;> simp only [DiagonalHalo, B.ab, B.ae, B.bb, B.be, B.hh] at h
    · refine ⟨(a - (halo + w)).toNat, (b - (halo + w)).toNat, by omega, by omega, ?_⟩
      simp only [Exchange.cornerHalo, cornerOf, B.ab, B.ae, B.bb, B.be, Prod.mk.injEq]; omega
    · refine ⟨(halo - 1 - a).toNat, (b - (halo + w)).toNat, by omega, by omega, ?_⟩
      simp only [Exchange.cornerHalo, cornerOf, B.ab, B.ae, B.bb, B.be, Prod.mk.injEq]; omega
    · refine ⟨(halo - 1 - a).toNat, (halo - 1 - b).toNat, by omega, by omega, ?_⟩
      simp only [Exchange.cornerHalo, cornerOf, B.ab, B.ae, B.bb, B.be, Prod.mk.injEq]; omega
    · refine ⟨(a - (halo + w)).toNat, (halo - 1 - b).toNat, by omega, by omega, ?_⟩
      simp only [Exchange.cornerHalo, cornerOf, B.ab, B.ae, B.bb, B.be, Prod.mk.injEq]; omega
  · rintro ⟨u, v, hu, hv, h⟩
    rcases hc with rfl | rfl | rfl | rfl <;> simp only [DiagonalHalo, B.ab, B.ae, B.bb, B.be, B.hh, Exchange.cornerHalo, cornerOf,
      Prod.mk.injEq] at h ⊢ <;> omega

theorem chalo_global {halo w : Int} {x : Box} {q i j : Int} (B : BoxAt halo w x q i j) {c : Dir} (hc : c.Corner) (u v : Nat) :
    (x.aGlobalBegin + (Exchange.cornerHalo c (cornerOf x c).1 (cornerOf x c).2 u v).1,
      x.bGlobalBegin + (Exchange.cornerHalo c (cornerOf x c).1 (cornerOf x c).2 u v).2) = cHaloG w i j c u v := by
  rw [B.a0, B.b0]
  rcases hc with rfl | rfl | rfl | rfl <;> simp only [Exchange.cornerHalo, cornerOf, B.ab, B.ae, B.bb, B.be, cHaloG, Prod.mk.injEq] <;> omega

theorem cint_global {halo w : Int} {x : Box} {q i j : Int} (B : BoxAt halo w x q i j) {c : Dir} (hc : c.Corner) (u v : Nat) :
    Exchange.cornerInterior c (cornerOf x c).1 (cornerOf x c).2 u v =
    ((cIntG w i j c u v).1 - x.aGlobalBegin, (cIntG w i j c u v).2 - x.bGlobalBegin) := by
  rw [B.a0, B.b0]
  rcases hc with rfl | rfl | rfl | rfl <;> simp only [Exchange.cornerInterior, cornerOf, B.ab, B.ae, B.bb, B.be, cIntG, Prod.mk.injEq] <;> omega

/-! ### C68 -/

/-- **C68 (links).**  In every accepted default layout, a corner of a patch is either at a corner of the cube, where
the halo nodes diagonally outside are nowhere on the sphere and nothing is registered; or it is linked to exactly one
corner of exactly one patch, and the link is the same seen from the other end. -/
theorem C68_links (rows done halo order res nPatch : Nat) (ho : 0 < order) (hres : 0 < res) (boxes : List Box)
    (hl : csLayout rows done halo order res nPatch = .ok boxes) (ratio : Int) (n : Nat) (x : Box)
    (hx : boxes[n]? = some x) (d : Dir) (hd : d.Corner) :
    ((∀ i j, DiagonalHalo x d i j → PlaceOf (order * res) x i j none) ∧
      ∃ regs, connections (csLookup order res ratio boxes 0) x = .ok regs ∧ ∀ r ∈ regs, r.dir ≠ d) ∨
    ∃ m y d' rev, CornerLink (csLookup order res ratio boxes 0) boxes n x d m y d' rev ∧
      CornerLink (csLookup order res ratio boxes 0) boxes m y d' n x d rev ∧
      ∀ m₁ y₁ d₁ rev₁, CornerLink (csLookup order res ratio boxes 0) boxes n x d m₁ y₁ d₁ rev₁ →
        m₁ = m ∧ y₁ = y ∧ d₁ = d' ∧ rev₁ = rev := by
  obtain ⟨E, hN⟩ := layout_even ho hres hl
  obtain ⟨q, i, j, hq, B, h⟩ := corner_step E hN ratio hx hd
  rcases h with ⟨h1, h2⟩ | ⟨m, y, c', rev, -, -, -, -, L, -⟩
  · left
    refine ⟨?_, h2⟩
    intro a b hab
    obtain ⟨u, v, -, -, e⟩ := (diagonal_nodes B hd a b).1 hab
    have hg := chalo_global B hd u v
    rw [← e] at hg
    have g1 := congrArg Prod.fst hg
    have g2 := congrArg Prod.snd hg
    simp only at g1 g2
    unfold PlaceOf
    rw [B.panel, g1, g2, ← hN]
    exact h1 u v (by omega) (by omega)
  · right
    exact ⟨m, y, c', rev, L, ⟨L.target, L.source, L.corner', L.corner, L.back, L.out, L.opposing', L.opposing⟩,
      fun m₁ y₁ d₁ rev₁ h => cornerLink_unique h L⟩

/-- What an exchange over a corner link delivers: the block at depths `(u, v)` comes from the owner's node at depths
exchanged if the panels are in `transposedPairs`. -/
theorem corner_delivery {α : Type} {halo w d : Nat} {boxes : List Box} (E : EvenLayout halo w d boxes) {order res : Nat}
    (hN : (w : Int) * d = (order : Int) * res) (hh : halo ≤ w) (ratio : Int)
    {n : Nat} {x : Box} {c : Dir} {m : Nat} {y : Box} {c' : Dir} {rev : Bool}
    (link : CornerLink (csLookup order res ratio boxes 0) boxes n x c m y c' rev)
    {sS sT : Setting} (hsS : SettingOf sS y) (hsT : SettingOf sT x) (same : Exchange.SameRun sS sT)
    (hn : Exchange.NonTrivial sS) (varLoc : Nat → Exchange.Loc) (junkS junkT : Nat → α) (t : Exchange.XType) (ix : Nat)
    (pS pT : Exchange.Patch α) (hpS : Exchange.Sized sS pS) (hpT : Exchange.Sized sT pT)
    (hIS : Exchange.HasInstance pS t ix) (hIT : Exchange.HasInstance pT t ix) :
    ∃ q i j q' i' j' swap, BoxAt halo w x q i j ∧ BoxAt halo w y q' i' j' ∧ ((q, q') ∈ transposedPairs ↔ swap ≠ rev) ∧
      (∀ u v : Int, 0 ≤ u → u < w → 0 ≤ v → v < w → Located ((w : Int) * d) q (cHaloG w i j c u v).1 (cHaloG w i j c u v).2
        (some (q', cIntG w i' j' c' (if swap then v else u) (if swap then u else v)))) ∧
    ∃ eS eT p', Exchange.exchangePair varLoc junkS junkT sS pS c' c rev (cornerOf y c').1 (cornerOf y c').2
        sT pT c c' rev (cornerOf x c).1 (cornerOf x c).2 t ix = .ok (eS, eT, p') ∧
      (∀ s f g, Exchange.Concerned varLoc t ix s → pS.get? s = some f → pT.get? s = some g →
        ∃ g', p'.get? s = some g' ∧
          (∀ u v k : Nat, u < halo → v < halo → k < g.sR →
            g'.val (Exchange.cornerHalo c (cornerOf x c).1 (cornerOf x c).2 u v).1
              (Exchange.cornerHalo c (cornerOf x c).1 (cornerOf x c).2 u v).2 k =
            f.val ((cIntG w i' j' c' (if rev then v else u : Nat) (if rev then u else v : Nat)).1 - y.aGlobalBegin)
              ((cIntG w i' j' c' (if rev then v else u : Nat) (if rev then u else v : Nat)).2 - y.bGlobalBegin) k) ∧
          ∀ i j k, ¬ DiagonalHalo x c i j → g'.val i j k = g.val i j k) ∧
      ∀ s, ¬ Exchange.Concerned varLoc t ix s → p'.get? s = pT.get? s := by
  have hc := link.corner
  have hc' := link.corner'
  obtain ⟨q, i, j, hq, B, hstep⟩ := corner_step E hN ratio link.source hc
  rcases hstep with ⟨-, regs, e1, e2⟩ | ⟨m₁, y₁, c₁, r₁, swap, q', i', j', L, B', ht, hloc⟩
  · exfalso
    obtain ⟨regs', e1', e2'⟩ := link.out
    rw [e1] at e1'; cases e1'
    exact e2 _ ((e2' _ rfl).2 rfl) rfl
  obtain ⟨rfl, rfl, rfl, rfl⟩ := cornerLink_unique link L
  refine ⟨q, i, j, q', i', j', swap, B, B', ht, hloc, ?_⟩
  obtain ⟨s1, s2, s3⟩ := hsS
  obtain ⟨t1, t2, t3⟩ := hsT
  rw [B'.hh] at s1; rw [B'.wa] at s2; rw [B'.wb] at s3
  rw [B.hh] at t1; rw [B.wa] at t2; rw [B.wb] at t3
  have hw : (0 : Int) < w := E.w0
  have fits : ∀ (s : Setting) (z : Box) (c : Dir) (q i j : Int), BoxAt halo w z q i j → c.Corner → (s.halo : Int) = halo →
      (s.widthA : Int) = w → (s.widthB : Int) = w →
      Exchange.Fits s ⟨c, (cornerOf z c).1, (cornerOf z c).2, s.halo, rev⟩ ∧
      ¬ Exchange.cornerTooClose s c (cornerOf z c).1 (cornerOf z c).2 s.halo := by
    intro s z c q i j B hc h1 h2 h3
    rcases hc with rfl | rfl | rfl | rfl <;>
      simp only [Exchange.Fits, Exchange.cornerTooClose, cornerOf, B.ab, B.ae, B.bb, B.be, Exchange.Setting.begin,
        Exchange.Setting.endA, Exchange.Setting.endB] <;> omega
  obtain ⟨fS, kS⟩ := fits sS y c' q' i' j' B' hc' s1 s2 s3
  obtain ⟨fT, kT⟩ := fits sT x c q i j B hc t1 t2 t3
  obtain ⟨eS, eT, p', h1, h2, h3, -⟩ := Exchange.C20_corner_exchange sS sT same hn
    ⟨c', (cornerOf y c').1, (cornerOf y c').2, sS.halo, rev⟩ ⟨c, (cornerOf x c).1, (cornerOf x c).2, sT.halo, rev⟩ c c' hc' hc
    rfl rfl fS fT kS kT varLoc junkS junkT t ix pS pT hpS hpT hIS hIT
  refine ⟨eS, eT, p', h1, ?_, h3⟩
  intro s f g hcn hf hg
  obtain ⟨g', hg', D⟩ := h2 s f g hcn hf hg
  refine ⟨g', hg', ?_, ?_⟩
  · intro u v k hu hv hk
    have := D.halo u v k (by simp only; omega) (by simp only; omega) hk
    simp only at this
    rw [this, cint_global B' hc']
  · intro a b k hab
    apply D.rest
    intro u v hu hv e
    apply hab
    simp only at hu hv
    exact (diagonal_nodes B hc a b).2 ⟨u, v, by omega, by omega, e⟩

theorem place_diag {halo w N : Int} {x : Box} {q i j : Int} (B : BoxAt halo w x q i j) {c : Dir} (hc : c.Corner)
    {a b : Int} {u v : Nat} (e : (a, b) = Exchange.cornerHalo c (cornerOf x c).1 (cornerOf x c).2 u v)
    {pl : Option (Int × Int × Int)} (h : Located N q (cHaloG w i j c u v).1 (cHaloG w i j c u v).2 pl) :
    PlaceOf N x a b pl := by
  have hg := chalo_global B hc u v
  rw [← e] at hg
  have g1 := congrArg Prod.fst hg
  have g2 := congrArg Prod.snd hg
  simp only at g1 g2
  unfold PlaceOf
  rw [B.panel, g1, g2]
  exact h

/-- The halo node with the two depths outside corner `d` exchanged. -/
def mirrored (x : Box) (d : Dir) (i j : Int) : Int × Int :=
  ((cornerOf x d).1 + (diagonalStep d).1 * (diagonalStep d).2 * (j - (cornerOf x d).2),
   (cornerOf x d).2 + (diagonalStep d).1 * (diagonalStep d).2 * (i - (cornerOf x d).1))

theorem mirrored_nodes {x : Box} {c : Dir} (hc : c.Corner) (u v : Nat) :
    mirrored x c (Exchange.cornerHalo c (cornerOf x c).1 (cornerOf x c).2 u v).1
      (Exchange.cornerHalo c (cornerOf x c).1 (cornerOf x c).2 u v).2 =
    Exchange.cornerHalo c (cornerOf x c).1 (cornerOf x c).2 v u := by
  unfold mirrored
  generalize cornerOf x c = k
  rcases hc with rfl | rfl | rfl | rfl <;> simp only [Exchange.cornerHalo, diagonalStep, Prod.mk.injEq] <;> omega

/-- **C68 (delivery).**  An exchange over a corner link fills every halo node diagonally outside the corner with the
value the other patch holds at the node of the sphere that halo node stands for, and changes nothing else, if the halo
is one node wide or the two panels are the same or not one of four pairs.  Missing: those four pairs of panels with a
wider halo, where the claim is false (`C68_transposed`, `C68_false_depth`). -/
theorem C68_delivered_partial {α : Type} (rows done halo order res nPatch : Nat) (ho : 0 < order) (hres : 0 < res)
    (boxes : List Box) (hl : csLayout rows done halo order res nPatch = .ok boxes)
    (hh : halo ≤ order * (res / csSplit nPatch)) (ratio : Int)
    (n : Nat) (x : Box) (d : Dir) (m : Nat) (y : Box) (d' : Dir) (rev : Bool)
    (link : CornerLink (csLookup order res ratio boxes 0) boxes n x d m y d' rev)
    (hgood : halo = 1 ∨ (x.panel, y.panel) ∉ transposedPairs)
    (sS sT : Setting) (hsS : SettingOf sS y) (hsT : SettingOf sT x) (same : Exchange.SameRun sS sT)
    (hn : Exchange.NonTrivial sS) (varLoc : Nat → Exchange.Loc) (junkS junkT : Nat → α) (t : Exchange.XType) (ix : Nat)
    (pS pT : Exchange.Patch α) (hpS : Exchange.Sized sS pS) (hpT : Exchange.Sized sT pT)
    (hIS : Exchange.HasInstance pS t ix) (hIT : Exchange.HasInstance pT t ix) :
    ∃ eS eT p', Exchange.exchangePair varLoc junkS junkT sS pS d' d rev (cornerOf y d').1 (cornerOf y d').2
        sT pT d d' rev (cornerOf x d).1 (cornerOf x d).2 t ix = .ok (eS, eT, p') ∧
      (∀ s f g, Exchange.Concerned varLoc t ix s → pS.get? s = some f → pT.get? s = some g →
        ∃ g', p'.get? s = some g' ∧
          (∀ i j, DiagonalHalo x d i j → ∃ a b, PlaceOf (order * res) x i j (some (y.panel, a, b)) ∧
            y.contains y.panel a b = true ∧
            ∀ k < g.sR, g'.val i j k = f.val (a - y.aGlobalBegin) (b - y.bGlobalBegin) k) ∧
          ∀ i j k, ¬ DiagonalHalo x d i j → g'.val i j k = g.val i j k) ∧
      ∀ s, ¬ Exchange.Concerned varLoc t ix s → p'.get? s = pT.get? s := by
  obtain ⟨E, hN⟩ := layout_even ho hres hl
  have hc := link.corner
  have hc' := link.corner'
  obtain ⟨q, i, j, q', i', j', swap, B, B', ht, hloc, eS, eT, p', h1, h2, h3⟩ :=
    corner_delivery E hN hh ratio link hsS hsT same hn varLoc junkS junkT t ix pS pT hpS hpT hIS hIT
  rw [hN] at hloc
  generalize order * (res / csSplit nPatch) = w at *
  refine ⟨eS, eT, p', h1, ?_, h3⟩
  intro s f g hcn hf hg
  obtain ⟨g', hg', D1, D2⟩ := h2 s f g hcn hf hg
  refine ⟨g', hg', ?_, D2⟩
  intro a b hab
  obtain ⟨u, v, hu, hv, e⟩ := (diagonal_nodes B hc a b).1 hab
  have hl := hloc u v (by omega) (by omega) (by omega) (by omega)
  have hsw : ((if swap then (v : Int) else u) = ((if rev then v else u : Nat) : Int)) ∧
      ((if swap then (u : Int) else v) = ((if rev then u else v : Nat) : Int)) := by
    rcases hgood with h | h
    · have : u = 0 := by omega
      have : v = 0 := by omega
      subst_vars
      cases swap <;> cases rev <;> simp
    · rw [B.panel, B'.panel, ht] at h
      have : swap = rev := by simpa using h
      subst this
      cases swap <;> simp
  rw [hsw.1, hsw.2] at hl
  refine ⟨(cIntG w i' j' d' (if rev then v else u : Nat) (if rev then u else v : Nat)).1,
    (cIntG w i' j' d' (if rev then v else u : Nat) (if rev then u else v : Nat)).2, ?_, ?_, ?_⟩
  · rw [B'.panel]
    exact place_diag B hc e hl
  · rw [B'.panel]
    apply has_cint B' hc' <;> cases rev <;> simp <;> omega
  · intro k hk
    have := D1 u v k hu hv hk
    rw [← e] at this
    exact this

/-- **C68 (what is delivered instead).**  Between the panels of `transposedPairs` the block arrives with its two
depths exchanged: the halo node gets the value that belongs to its mirror image. -/
theorem C68_transposed {α : Type} (rows done halo order res nPatch : Nat) (ho : 0 < order) (hres : 0 < res)
    (boxes : List Box) (hl : csLayout rows done halo order res nPatch = .ok boxes)
    (hh : halo ≤ order * (res / csSplit nPatch)) (ratio : Int)
    (n : Nat) (x : Box) (d : Dir) (m : Nat) (y : Box) (d' : Dir) (rev : Bool)
    (link : CornerLink (csLookup order res ratio boxes 0) boxes n x d m y d' rev)
    (hbad : (x.panel, y.panel) ∈ transposedPairs)
    (sS sT : Setting) (hsS : SettingOf sS y) (hsT : SettingOf sT x) (same : Exchange.SameRun sS sT)
    (hn : Exchange.NonTrivial sS) (varLoc : Nat → Exchange.Loc) (junkS junkT : Nat → α) (t : Exchange.XType) (ix : Nat)
    (pS pT : Exchange.Patch α) (hpS : Exchange.Sized sS pS) (hpT : Exchange.Sized sT pT)
    (hIS : Exchange.HasInstance pS t ix) (hIT : Exchange.HasInstance pT t ix) :
    ∃ eS eT p', Exchange.exchangePair varLoc junkS junkT sS pS d' d rev (cornerOf y d').1 (cornerOf y d').2
        sT pT d d' rev (cornerOf x d).1 (cornerOf x d).2 t ix = .ok (eS, eT, p') ∧
      ∀ s f g, Exchange.Concerned varLoc t ix s → pS.get? s = some f → pT.get? s = some g →
        ∃ g', p'.get? s = some g' ∧
          ∀ i j, DiagonalHalo x d i j → ∃ a b,
            PlaceOf (order * res) x (mirrored x d i j).1 (mirrored x d i j).2 (some (y.panel, a, b)) ∧
            ∀ k < g.sR, g'.val i j k = f.val (a - y.aGlobalBegin) (b - y.bGlobalBegin) k := by
  obtain ⟨E, hN⟩ := layout_even ho hres hl
  have hc := link.corner
  have hc' := link.corner'
  obtain ⟨q, i, j, q', i', j', swap, B, B', ht, hloc, eS, eT, p', h1, h2, h3⟩ :=
    corner_delivery E hN hh ratio link hsS hsT same hn varLoc junkS junkT t ix pS pT hpS hpT hIS hIT
  rw [hN] at hloc
  generalize order * (res / csSplit nPatch) = w at *
  refine ⟨eS, eT, p', h1, ?_⟩
  intro s f g hcn hf hg
  obtain ⟨g', hg', D1, D2⟩ := h2 s f g hcn hf hg
  refine ⟨g', hg', ?_⟩
  intro a b hab
  obtain ⟨u, v, hu, hv, e⟩ := (diagonal_nodes B hc a b).1 hab
  have hl := hloc v u (by omega) (by omega) (by omega) (by omega)
  have hsw : ((if swap then (u : Int) else v) = ((if rev then v else u : Nat) : Int)) ∧
      ((if swap then (v : Int) else u) = ((if rev then u else v : Nat) : Int)) := by
    rw [B.panel, B'.panel, ht] at hbad
    cases swap <;> cases rev <;> simp at hbad ⊢
  rw [hsw.1, hsw.2] at hl
  have hm := mirrored_nodes (x := x) hc u v
  rw [← e] at hm
  refine ⟨(cIntG w i' j' d' (if rev then v else u : Nat) (if rev then u else v : Nat)).1,
    (cIntG w i' j' d' (if rev then v else u : Nat) (if rev then u else v : Nat)).2, ?_, ?_⟩
  · rw [B'.panel]
    exact place_diag (a := (mirrored x d a b).1) (b := (mirrored x d a b).2) B hc hm hl
  · intro k hk
    have := D1 u v k hu hv hk
    rw [← e] at this
    exact this

/-! ### A cubed sphere of 24 patches of 4 by 4 nodes with two halo nodes -/

/-- The layout. -/
theorem demo_layout : csLayout 24 0 2 4 2 24 = .ok (csBoxes 2 4 2 2) := by
  have h : csSplit 24 = 2 := by decide +kernel
  unfold csLayout
  rw [h, if_neg (by decide), if_neg (by decide), if_neg (by rw [csBoxes_length]; decide)]

/-- Settings of its patches. -/
def linkSet : Setting := ⟨2, 5, 1, 3, 4, 4⟩

/-- A patch whose values encode the node. -/
def linkPatch (n tag : Int) : Exchange.Patch Int where
  index := n
  stateNode := [⟨true, .node, 5, 8, 8, 3, fun _ i j k => tag + 100 * i + 10 * j + k⟩]
  stateREdge := [⟨true, .rEdge, 5, 8, 8, 4, fun _ i j k => tag + 100 * i + 10 * j + k⟩]
  tracers := [⟨false, .node, 1, 8, 8, 3, fun _ i j k => tag + 100 * i + 10 * j + k⟩]
  vorticity := ⟨8, 8, 3, fun i j k => tag + 100 * i + 10 * j + k⟩
  divergence := ⟨8, 8, 3, fun i j k => tag + 100 * i + 10 * j + k⟩
  temperature := ⟨8, 8, 3, fun i j k => tag + 100 * i + 10 * j + k⟩
  richardson := ⟨8, 8, 3, fun i j k => tag + 100 * i + 10 * j + k⟩
  topographyDeriv := ⟨8, 8, 2, fun i j k => tag + 100 * i + 10 * j + k⟩

theorem link_sized (n tag : Int) : Exchange.Sized linkSet (linkPatch n tag) := by
  constructor <;> simp [linkPatch, linkSet]

/-- The left half of the upper row of panel 1. -/
def linkBox : Box := ⟨1, 0, 2, -2, 6, 2, 10⟩

/-- The right half of the lower row of panel 4, seen from panel 1: its diagonal neighbour. -/
def diagBox : Box := ⟨4, 0, 2, 2, 10, 2, 10⟩

/-- Its straight neighbour above, on panel 4. -/
def topBox : Box := ⟨4, 0, 2, 2, 10, -2, 6⟩

/-- Patch 5 is linked over its top side to patch 18, and over its upper right corner to patch 19. -/
theorem demo_links : ∃ d' rev d'' rev', SideLink (csLookup 4 2 2 (csBoxes 2 4 2 2) 0) (csBoxes 2 4 2 2) 5 linkBox .top 18 topBox d' rev ∧
    CornerLink (csLookup 4 2 2 (csBoxes 2 4 2 2) 0) (csBoxes 2 4 2 2) 5 linkBox .topRight 19 diagBox d'' rev' := by
  have hx : (csBoxes 2 4 2 2)[5]? = some linkBox := by decide +kernel
  have hc : connections (csLookup 4 2 2 (csBoxes 2 4 2 2) 0) linkBox = .ok [⟨2, .bottomLeft, 2, 2⟩, ⟨4, .bottom, 2, 6⟩,
      ⟨6, .bottomRight, 5, 2⟩, ⟨7, .right, 2, 6⟩, ⟨19, .topRight, 5, 5⟩, ⟨18, .top, 2, 6⟩, ⟨3, .left, 2, 6⟩] := by rfl
  obtain ⟨m, y, d', rev, L, -⟩ := C67_links 24 0 2 4 2 24 (by decide) (by decide) _ demo_layout 2 5 linkBox hx .top (by simp [Dir.Edge])
  have hm : m = 18 := by
    obtain ⟨regs, e1, e2⟩ := L.out
    rw [show ((4 : Nat) : Int) = 4 from rfl, show ((2 : Nat) : Int) = 2 from rfl, hc] at e1
    cases e1
    have := (e2 ⟨m, .top, _, _⟩ rfl).2 rfl
    simp at this
    exact this.1
  subst hm
  have hy : y = topBox := by
    have := L.target
    rw [show (csBoxes 2 4 2 2)[18]? = some topBox by decide +kernel] at this
    cases this; rfl
  subst hy
  rcases C68_links 24 0 2 4 2 24 (by decide) (by decide) _ demo_layout 2 5 linkBox hx .topRight (by simp [Dir.Corner]) with
    ⟨-, regs, e1, e2⟩ | ⟨m, y, d'', rev', L', -⟩
  · rw [show ((4 : Nat) : Int) = 4 from rfl, show ((2 : Nat) : Int) = 2 from rfl, hc] at e1
    cases e1
    exact absurd rfl (e2 ⟨19, .topRight, 5, 5⟩ (by simp))
  · have hm : m = 19 := by
      obtain ⟨regs, e1, e2⟩ := L'.out
      rw [show ((4 : Nat) : Int) = 4 from rfl, show ((2 : Nat) : Int) = 2 from rfl, hc] at e1
      cases e1
      have := (e2 ⟨m, .topRight, _, _⟩ rfl).2 rfl
      simp at this
      exact this.1
    subst hm
    have hy : y = diagBox := by
      have := L'.target
      rw [show (csBoxes 2 4 2 2)[19]? = some diagBox by decide +kernel] at this
      cases this; rfl
    subst hy
    exact ⟨d', rev, d'', rev', L, L'⟩

theorem link_setting : SettingOf linkSet linkBox ∧ SettingOf linkSet topBox ∧ SettingOf linkSet diagBox := by
  unfold SettingOf; decide

-- the state received over the top side of patch 5
example : ∃ d' rev eS eT p', Exchange.exchangePair Exchange.demoLoc (fun _ => 0) (fun _ => 0)
    linkSet (linkPatch 18 50000) d' .top rev 2 6 linkSet (linkPatch 5 0) .top d' rev 2 6 .state 0 = .ok (eS, eT, p') := by
  obtain ⟨d', rev, -, -, L, -⟩ := demo_links
  obtain ⟨eS, eT, p', h, -⟩ := C67_delivered 24 0 2 4 2 24 (by decide) (by decide) _ demo_layout (by decide +kernel) 2 5 linkBox .top 18
    topBox d' rev L linkSet linkSet link_setting.2.1 link_setting.1 ⟨rfl, rfl, rfl, rfl⟩ ⟨by decide, by decide⟩ Exchange.demoLoc
    (fun _ => 0) (fun _ => 0) .state 0 (linkPatch 18 50000) (linkPatch 5 0) (link_sized _ _) (link_sized _ _)
    (by simp [Exchange.HasInstance, linkPatch]) (by simp [Exchange.HasInstance, linkPatch])
  have e1 : sideBegin topBox d' = 2 ∧ sideEnd topBox d' = 6 := by cases d' <;> decide
  rw [e1.1, e1.2] at h
  exact ⟨d', rev, eS, eT, p', h⟩

-- the tracers received at the lower right corner of patch 5, from patch 6 of the same panel
example : ∃ d' rev eS eT p', Exchange.exchangePair Exchange.demoLoc (fun _ => 0) (fun _ => 0)
    linkSet (linkPatch 6 50000) d' .bottomRight rev (cornerOf ⟨1, 0, 2, 2, 10, -2, 6⟩ d').1 (cornerOf ⟨1, 0, 2, 2, 10, -2, 6⟩ d').2
    linkSet (linkPatch 5 0) .bottomRight d' rev 5 2 .tracers 0 = .ok (eS, eT, p') := by
  have hx : (csBoxes 2 4 2 2)[5]? = some linkBox := by decide +kernel
  have hc : connections (csLookup 4 2 2 (csBoxes 2 4 2 2) 0) linkBox = .ok [⟨2, .bottomLeft, 2, 2⟩, ⟨4, .bottom, 2, 6⟩,
      ⟨6, .bottomRight, 5, 2⟩, ⟨7, .right, 2, 6⟩, ⟨19, .topRight, 5, 5⟩, ⟨18, .top, 2, 6⟩, ⟨3, .left, 2, 6⟩] := by rfl
  rcases C68_links 24 0 2 4 2 24 (by decide) (by decide) _ demo_layout 2 5 linkBox hx .bottomRight (by simp [Dir.Corner]) with
    ⟨-, regs, e1, e2⟩ | ⟨m, y, d', rev, L, -⟩
  · rw [show ((4 : Nat) : Int) = 4 from rfl, show ((2 : Nat) : Int) = 2 from rfl, hc] at e1
    cases e1
    exact absurd rfl (e2 ⟨6, .bottomRight, 5, 2⟩ (by simp))
  · have hm : m = 6 := by
      obtain ⟨regs, e1, e2⟩ := L.out
      rw [show ((4 : Nat) : Int) = 4 from rfl, show ((2 : Nat) : Int) = 2 from rfl, hc] at e1
      cases e1
      have := (e2 ⟨m, .bottomRight, _, _⟩ rfl).2 rfl
      simp at this
      exact this.1
    subst hm
    have hy : y = ⟨1, 0, 2, 2, 10, -2, 6⟩ := by
      have := L.target
      rw [show (csBoxes 2 4 2 2)[6]? = some ⟨1, 0, 2, 2, 10, -2, 6⟩ by decide +kernel] at this
      cases this; rfl
    subst hy
    obtain ⟨eS, eT, p', h, -⟩ := C68_delivered_partial 24 0 2 4 2 24 (by decide) (by decide) _ demo_layout (by decide +kernel) 2 5
      linkBox .bottomRight 6 _ d' rev L (Or.inr (by decide)) linkSet linkSet (by unfold SettingOf; decide) link_setting.1
      ⟨rfl, rfl, rfl, rfl⟩ ⟨by decide, by decide⟩ Exchange.demoLoc (fun _ => 0) (fun _ => 0) .tracers 0 (linkPatch 6 50000)
      (linkPatch 5 0) (link_sized _ _) (link_sized _ _) (by simp [Exchange.HasInstance, linkPatch])
      (by simp [Exchange.HasInstance, linkPatch])
    exact ⟨d', rev, eS, eT, p', h⟩

/-- **C68 is false for wider halos.**  In this layout the vorticity received at the upper right corner of patch 5 is,
at the halo node one row up, not the value its owner holds at that place. -/
theorem C68_false_depth : ∃ d' rev eS eT p' i j a b,
    CornerLink (csLookup 4 2 2 (csBoxes 2 4 2 2) 0) (csBoxes 2 4 2 2) 5 linkBox .topRight 19 diagBox d' rev ∧
    Exchange.exchangePair Exchange.demoLoc (fun _ => 0) (fun _ => 0) linkSet (linkPatch 19 50000) d' .topRight rev
      (cornerOf diagBox d').1 (cornerOf diagBox d').2 linkSet (linkPatch 5 0) .topRight d' rev
      (cornerOf linkBox .topRight).1 (cornerOf linkBox .topRight).2 .vorticity 0 = .ok (eS, eT, p') ∧
    DiagonalHalo linkBox .topRight i j ∧ PlaceOf (4 * 2) linkBox i j (some (diagBox.panel, a, b)) ∧
    diagBox.contains diagBox.panel a b = true ∧
    p'.vorticity.val i j 0 ≠ (linkPatch 19 50000).vorticity.val (a - diagBox.aGlobalBegin) (b - diagBox.bGlobalBegin) 0 := by
  obtain ⟨-, -, d', rev, -, L⟩ := demo_links
  obtain ⟨eS, eT, p', h, hv⟩ := C68_transposed 24 0 2 4 2 24 (by decide) (by decide) _ demo_layout (by decide +kernel) 2 5 linkBox
    .topRight 19 diagBox d' rev L (by decide) linkSet linkSet link_setting.2.2 link_setting.1 ⟨rfl, rfl, rfl, rfl⟩
    ⟨by decide, by decide⟩ Exchange.demoLoc (fun _ => 0) (fun _ => 0) .vorticity 0 (linkPatch 19 50000) (linkPatch 5 0)
    (link_sized _ _) (link_sized _ _) (by simp [Exchange.HasInstance]) (by simp [Exchange.HasInstance])
  obtain ⟨g', hg, hval⟩ := hv .vorticity _ _ (by simp [Exchange.Concerned]) rfl rfl
  cases hg
  have hin : DiagonalHalo linkBox .topRight 6 7 := by simp only [DiagonalHalo]; decide
  obtain ⟨a, b, hp, hk⟩ := hval 6 7 hin
  have hpl : ∀ i j pl, csPlace 8 1 (-2 + i) (2 + j) = pl → PlaceOf (4 * 2) linkBox i j pl := by
    intro i j pl e
    rw [← e]
    exact csPlace_located 8 1 (-2 + i) (2 + j) (by decide) (by unfold IsPanel; decide)
  have h1 : PlaceOf (4 * 2) linkBox 6 7 (some (4, 6, 4)) := hpl 6 7 _ (by decide)
  have h2 : PlaceOf (4 * 2) linkBox 7 6 (some (4, 7, 5)) := hpl 7 6 _ (by decide)
  have hm : mirrored linkBox .topRight 6 7 = (7, 6) := by decide
  rw [hm] at hp
  have e := located_unique hp h2
  simp only [Option.some.injEq, Prod.mk.injEq] at e
  obtain ⟨-, rfl, rfl⟩ := e
  refine ⟨d', rev, eS, eT, p', 6, 7, 6, 4, L, h, hin, h1, by decide, ?_⟩
  rw [hk 0 (by decide)]
  decide

end Verif.Patch
