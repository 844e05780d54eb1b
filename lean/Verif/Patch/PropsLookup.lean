/-
C26: patch lookup.
-/
import Verif.Patch.PropsLayout
import Verif.Panel.Props

namespace Verif.Patch

open Verif.Exchange (Res)
open Verif.Panel (relativeCoord)

/-! ### Spec: where a node outside its panel really is -/

/-- A node beyond one edge of panel `p` is the node the panel crossing gives; a node on the panel is itself; a node
beyond two edges is nowhere. -/
inductive Located (N : Int) : Int → Int → Int → Option (Int × Int × Int) → Prop
  | here {p a b} (ha : 0 ≤ a ∧ a < N) (hb : 0 ≤ b ∧ b < N) : Located N p a b (some (p, a, b))
  | across {p a b r} (h : ¬ ((0 ≤ a ∧ a < N) ∧ (0 ≤ b ∧ b < N))) (h1 : (0 ≤ a ∧ a < N) ∨ (0 ≤ b ∧ b < N))
      (hr : relativeCoord N p a b = some r) : Located N p a b (some (r.panel, r.ix, r.jx))
  | nowhere {p a b} (ha : ¬ (0 ≤ a ∧ a < N)) (hb : ¬ (0 ≤ b ∧ b < N)) : Located N p a b none

theorem relCoord_marker (N p a b : Int) (hN : 0 < N) (h : ¬ ((0 ≤ a ∧ a < N) ∧ (0 ≤ b ∧ b < N)))
    (h1 : (0 ≤ a ∧ a < N) ∨ (0 ≤ b ∧ b < N)) (r : Panel.Rel) (hr : relativeCoord N p a b = some r) :
    ¬ (r.ix = -1 ∧ r.jx = -1) := by
  intro hc
  unfold relativeCoord at hr
  rw [if_neg (by omega), if_neg (by omega)] at hr
  split_ifs at hr <;> cases hr <;> simp only at hc <;> omega

theorem csPlace_located (N p a b : Int) (hN : 0 < N) (hp : Panel.IsPanel p) : Located N p a b (csPlace N p a b) := by
  unfold csPlace
  by_cases h : a < 0 ∨ a ≥ N ∨ b < 0 ∨ b ≥ N
  · rw [if_pos h]
    by_cases h1 : (0 ≤ a ∧ a < N) ∨ (0 ≤ b ∧ b < N)
    · cases hr : relativeCoord N p a b with
      | none =>
        exfalso
        obtain ⟨p0, p1⟩ := hp
        have c : (N ≤ a ∧ 0 ≤ b ∧ b < N) ∨ (N ≤ b ∧ 0 ≤ a ∧ a < N) ∨ (a < 0 ∧ 0 ≤ b ∧ b < N) ∨
            (b < 0 ∧ 0 ≤ a ∧ a < N) := by omega
        rcases c with ⟨c1, c2, c3⟩ | ⟨c1, c2, c3⟩ | ⟨c1, c2, c3⟩ | ⟨c1, c2, c3⟩ <;>
          (first | rw [Panel.rel_right c1 c2 c3] at hr | rw [Panel.rel_top c1 c2 c3] at hr
                 | rw [Panel.rel_left c1 c2 c3] at hr | rw [Panel.rel_bottom c1 c2 c3] at hr) <;>
          interval_cases p <;> simp at hr
      | some r =>
        simp only
        rw [if_neg (relCoord_marker N p a b hN (by omega) h1 r hr)]
        exact .across (by omega) h1 hr
    · obtain ⟨r, hr, hpl, -⟩ := Panel.C31_corner N p a b (by omega) (by omega)
      rw [hr]
      simp only
      have e1 : r.ix = -1 := congrArg (fun x => x.2.1) hpl
      have e2 : r.jx = -1 := congrArg (fun x => x.2.2) hpl
      rw [if_pos ⟨e1, e2⟩]
      exact .nowhere (by omega) (by omega)
  · rw [if_neg h]
    exact .here (by omega) (by omega)

/-! ### Search with a cache -/

theorem scan_eq (p a b : Int) (xs : List Box) : ∀ n m, scan p a b xs n = some m ↔
    ∃ k, m = n + k ∧ (∃ x, xs[k]? = some x ∧ x.contains p a b = true) ∧
      ∀ j < k, ∀ x, xs[j]? = some x → x.contains p a b = false := by
  induction xs with
  | nil => intro n m; simp [scan]
  | cons x xs ih =>
    intro n m
    unfold scan
    by_cases h : x.contains p a b = true
    · rw [if_pos h]
      constructor
      · intro e; cases e
        exact ⟨0, rfl, ⟨x, rfl, h⟩, by intro j hj; omega⟩
      · rintro ⟨k, rfl, -, h2⟩
        rcases k with _ | k
        · rfl
        · have := h2 0 (by omega) x rfl
          rw [h] at this; cases this
    · rw [if_neg h, ih]
      constructor
      · rintro ⟨k, rfl, h1, h2⟩
        refine ⟨k + 1, by omega, by simpa using h1, ?_⟩
        intro j hj y hy
        rcases j with _ | j
        · simp at hy; subst hy; simpa using h
        · exact h2 j (by omega) y (by simpa using hy)
      · rintro ⟨k, rfl, h1, h2⟩
        rcases k with _ | k
        · simp at h1; exact absurd h1 h
        · refine ⟨k, by omega, by simpa using h1, ?_⟩
          intro j hj y hy
          exact h2 (j + 1) (by omega) y (by simpa using hy)

theorem scan_owned {boxes : List Box} (hd : Disjoint boxes) (p a b : Int) (m : Nat) :
    scan p a b boxes 0 = some m ↔ OwnedBy boxes m p a b := by
  rw [scan_eq]
  constructor
  · rintro ⟨k, rfl, h, -⟩
    rw [Nat.zero_add]; exact h
  · intro h
    refine ⟨m, by omega, h, ?_⟩
    intro j hj x hx
    by_contra hc
    have := hd j m p a b ⟨x, hx, by simpa using hc⟩ h
    omega

theorem cached_owned {boxes : List Box} {last : Option Nat} {p a b : Int} (h : cached boxes last p a b = true) :
    ∃ n, last = some n ∧ OwnedBy boxes n p a b := by
  unfold cached at h
  split at h
  · cases h
  · split at h
    · cases h
    · next n _ x hx => exact ⟨n, rfl, x, hx, h⟩

theorem answer_of_owned {boxes : List Box} (hd : Disjoint boxes) {p a b : Int} {n : Nat} (h : OwnedBy boxes n p a b) :
    Answer boxes (some (p, a, b)) (some n) := by
  intro m
  constructor
  · intro e; cases e; exact ⟨p, a, b, rfl, h⟩
  · rintro ⟨p', a', b', e, h'⟩
    cases e
    rw [hd n m _ _ _ h h']

theorem answer_none {boxes : List Box} (hd : Disjoint boxes) {p a b : Int} (h : scan p a b boxes 0 = none) :
    Answer boxes (some (p, a, b)) none := by
  intro m
  constructor
  · intro e; cases e
  · rintro ⟨p', a', b', e, h'⟩
    cases e
    rw [(scan_owned hd _ _ _ m).2 h'] at h
    cases h

theorem answer_unique {boxes : List Box} {node : Option (Int × Int × Int)} {x y : Option Nat}
    (hx : Answer boxes node x) (hy : Answer boxes node y) : x = y := by
  cases x with
  | none =>
    cases y with
    | none => rfl
    | some m => exact ((hx m).2 ((hy m).1 rfl))
  | some n => exact ((hy n).2 ((hx n).1 rfl)).symm

theorem csLoop_answers {boxes : List Box} (hd : Disjoint boxes) (N : Int) (pts : List (Int × Int × Int)) :
    ∀ last, (csLoop N boxes last pts).length = pts.length ∧ ∀ (m : Nat) p a b, pts[m]? = some (p, a, b) →
      ∃ ans, (csLoop N boxes last pts)[m]? = some ans ∧ Answer boxes (csPlace N p a b) ans := by
  induction pts with
  | nil => intro last; simp [csLoop]
  | cons pt pts ih =>
    obtain ⟨p, a, b⟩ := pt
    intro last
    have extend : ∀ (ans : Option Nat) (last' : Option Nat), Answer boxes (csPlace N p a b) ans →
        (ans :: csLoop N boxes last' pts).length = ((p, a, b) :: pts).length ∧
        ∀ (m : Nat) p' a' b', ((p, a, b) :: pts)[m]? = some (p', a', b') →
          ∃ ans', (ans :: csLoop N boxes last' pts)[m]? = some ans' ∧ Answer boxes (csPlace N p' a' b') ans' := by
      intro ans last' hans
      obtain ⟨i1, i2⟩ := ih last'
      refine ⟨by simp [i1], ?_⟩
      intro m p' a' b' h
      rcases m with _ | m
      · simp at h; obtain ⟨rfl, rfl, rfl⟩ := h; exact ⟨ans, rfl, hans⟩
      · exact i2 m p' a' b' (by simpa using h)
    unfold csLoop
    cases hc : csPlace N p a b with
    | none =>
      simp only
      apply extend
      rw [hc]
      intro n; simp
    | some q =>
      obtain ⟨p', a', b'⟩ := q
      simp only
      by_cases hca : cached boxes last p' a' b' = true
      · rw [if_pos hca]
        apply extend
        obtain ⟨n, e, h⟩ := cached_owned hca
        rw [hc, e]
        exact answer_of_owned hd h
      · rw [if_neg hca]
        cases hs : scan p' a' b' boxes 0 with
        | some n =>
          simp only
          apply extend
          rw [hc]
          exact answer_of_owned hd ((scan_owned hd _ _ _ n).1 hs)
        | none =>
          simp only
          apply extend
          rw [hc]
          exact answer_none hd hs

theorem intPow_eq (d : Int) (p : Nat) : intPow d p = d ^ p := by
  have key : ∀ (l : List Nat) (c : Int), l.foldl (fun acc _ => acc * d) c = c * d ^ l.length := by
    intro l
    induction l with
    | nil => intro c; simp
    | cons x l ih => intro c; rw [List.foldl_cons, ih, List.length_cons, pow_succ]; ring
  unfold intPow
  rcases p with _ | p
  · simp
  · rw [if_neg (by omega), key, List.length_range, Nat.add_sub_cancel, pow_succ]; ring

/-- **C26 (cubed sphere).**  For every disjoint layout, every refinement level and every list of nodes on existing
panels, lookup returns one answer per node: the number of the patch that owns the node after panel crossing, or none
if there is no such node or no patch owns it.  The answer for a node is determined by that node alone, whatever
the rest of the list is. -/
theorem C26_cubed_sphere (order base ratio : Int) (ho : 0 < order) (hb : 0 < base) (hr : 0 < ratio)
    (boxes : List Box) (hd : Disjoint boxes) (level : Nat) (pts : List (Int × Int × Int))
    (hp : ∀ pt ∈ pts, Panel.IsPanel pt.1) :
    ∃ out, csLookup order base ratio boxes level pts = .ok out ∧ out.length = pts.length ∧
      ∀ (m : Nat) p a b, pts[m]? = some (p, a, b) → ∃ ans place, out[m]? = some ans ∧
        Located (order * base * ratio ^ level) p a b place ∧ Answer boxes place ans := by
  refine ⟨csLoop (localResolution order base ratio level) boxes none pts, ?_, (csLoop_answers hd _ pts none).1, ?_⟩
  · unfold csLookup; rw [if_neg (by omega)]; rfl
  · intro m p a b h
    obtain ⟨ans, h1, h2⟩ := (csLoop_answers hd (localResolution order base ratio level) pts none).2 m p a b h
    have e : localResolution order base ratio level = order * base * ratio ^ level := by
      unfold localResolution; rw [intPow_eq]; ring
    refine ⟨ans, csPlace (localResolution order base ratio level) p a b, h1, ?_, h2⟩
    rw [← e]
    apply csPlace_located
    · rw [e]; positivity
    · exact hp _ (List.mem_of_getElem? h)

theorem located_unique {N p a b : Int} {x y : Option (Int × Int × Int)} (hx : Located N p a b x)
    (hy : Located N p a b y) : x = y := by
  cases hx with
  | here h1 h2 =>
    cases hy with
    | here _ _ => rfl
    | across h _ _ => exact absurd ⟨h1, h2⟩ h
    | nowhere h _ => exact absurd h1 h
  | across h h1 hr =>
    cases hy with
    | here g1 g2 => exact absurd ⟨g1, g2⟩ h
    | across _ _ hr' => rw [hr] at hr'; cases hr'; rfl
    | nowhere g1 g2 => rcases h1 with h1 | h1 <;> contradiction
  | nowhere g1 g2 =>
    cases hy with
    | here h _ => exact absurd h g1
    | across _ h1 _ => rcases h1 with h1 | h1 <;> contradiction
    | nowhere _ _ => rfl

/-- **C26 (history).**  The same node gets the same answer at any position of any list. -/
theorem C26_history (order base ratio : Int) (ho : 0 < order) (hb : 0 < base) (hr : 0 < ratio)
    (boxes : List Box) (hd : Disjoint boxes) (level : Nat) (pts pts' : List (Int × Int × Int))
    (hp : ∀ pt ∈ pts, Panel.IsPanel pt.1) (hp' : ∀ pt ∈ pts', Panel.IsPanel pt.1) (out out' : List (Option Nat))
    (h : csLookup order base ratio boxes level pts = .ok out)
    (h' : csLookup order base ratio boxes level pts' = .ok out') (m m' : Nat) (pt : Int × Int × Int)
    (hm : pts[m]? = some pt) (hm' : pts'[m']? = some pt) : out[m]? = out'[m']? := by
  obtain ⟨o, e, -, H⟩ := C26_cubed_sphere order base ratio ho hb hr boxes hd level pts hp
  obtain ⟨o', e', -, H'⟩ := C26_cubed_sphere order base ratio ho hb hr boxes hd level pts' hp'
  rw [h] at e; cases e
  rw [h'] at e'; cases e'
  obtain ⟨ans, pl, a1, a2, a3⟩ := H m pt.1 pt.2.1 pt.2.2 hm
  obtain ⟨ans', pl', b1, b2, b3⟩ := H' m' pt.1 pt.2.1 pt.2.2 hm'
  rw [located_unique b2 a2] at b3
  rw [a1, b1, answer_unique a3 b3]

/-- Six panels of 4 by 4 nodes, one patch each: the node left of panel 0 belongs to patch 3, the diagonal node to
none, and the answer after them is not disturbed. -/
example : csLookup 4 1 2 (csBoxes 1 4 1 1) 0 [(0, -1, 2), (0, -1, -1), (2, 4, 0), (2, 1, 4), (0, 0, 0)] =
    .ok [some 3, none, some 3, some 4, some 0] := by rfl

/-- **C26 (default layout, cubed sphere).**  With the default layout at the base level, a node of a panel is always
found, and so is a node beyond one edge by no more than the panel size; only nodes beyond two edges are not. -/
theorem C26_default (rows done halo order res nPatch : Nat) (ho : 0 < order) (hres : 0 < res) (boxes : List Box)
    (hl : csLayout rows done halo order res nPatch = .ok boxes) (ratio : Int) (hr : 0 < ratio)
    (pts : List (Int × Int × Int)) (hp : ∀ pt ∈ pts, Panel.IsPanel pt.1) :
    ∃ out, csLookup order res ratio boxes 0 pts = .ok out ∧ out.length = pts.length ∧
      ∀ (m : Nat) p a b, pts[m]? = some (p, a, b) →
        (Panel.Reach (order * res) (a, b) → ∃ n place, out[m]? = some (some n) ∧
          Located (order * res) p a b (some place) ∧ OwnedBy boxes n place.1 place.2.1 place.2.2) ∧
        (¬ (0 ≤ a ∧ a < order * res) → ¬ (0 ≤ b ∧ b < order * res) → out[m]? = some none) := by
  have part := C25_cubed_sphere rows done halo order res nPatch boxes hl
  obtain ⟨out, h1, h2, h3⟩ := C26_cubed_sphere order res ratio (by omega) (by omega) hr boxes part.1 0 pts hp
  refine ⟨out, h1, h2, ?_⟩
  intro m p a b hm
  obtain ⟨ans, place, e1, e2, e3⟩ := h3 m p a b hm
  rw [pow_zero, mul_one] at e2
  have hpp : Panel.IsPanel p := hp _ (List.mem_of_getElem? hm)
  refine ⟨?_, ?_⟩
  · intro hreach
    have hvalid : ∃ q, place = some q ∧ CSNode (order * res) q.1 q.2.1 q.2.2 := by
      cases e2 with
      | here ha hb =>
        refine ⟨_, rfl, ?_⟩
        unfold Panel.IsPanel at hpp
        exact ⟨by omega, by push_cast; exact ha, by push_cast; exact hb⟩
      | across hn h1 hr' =>
        refine ⟨_, rfl, ?_⟩
        obtain ⟨r, g1, g2, g3, -⟩ := Panel.C31_valid (order * res) p a b hpp hreach
        rw [hr'] at g1; cases g1
        unfold Panel.IsPanel at g2
        unfold Panel.OnPanel at g3
        exact ⟨by omega, by push_cast; exact ⟨g3.1, g3.2.1⟩, by push_cast; exact g3.2.2⟩
      | nowhere ha hb => unfold Panel.Reach at hreach; omega
    obtain ⟨q, rfl, hq⟩ := hvalid
    obtain ⟨n, hn⟩ := (part.2 _ _ _).1 hq
    refine ⟨n, q, ?_, e2, hn⟩
    rw [e1, (e3 n).2 ⟨q.1, q.2.1, q.2.2, rfl, hn⟩]
  · intro ha hb
    have : place = none := located_unique e2 (.nowhere ha hb)
    subst this
    rw [e1]
    cases ans with
    | none => rfl
    | some n =>
      obtain ⟨_, _, _, h, _⟩ := (e3 n).1 rfl
      cases h

/-! ### Cartesian grids -/

/-- An index in range is itself; just outside, it is wrapped if that side is periodic and nowhere otherwise. -/
inductive Wrapped (N : Int) (low high : Bool) : Int → Option Int → Prop
  | here {i} (h : 0 ≤ i ∧ i < N) : Wrapped N low high i (some i)
  | below {i} (h : i < 0) (hl : low = true) (hi : -N ≤ i) : Wrapped N low high i (some (i + N))
  | above {i} (h : N ≤ i) (hh : high = true) (hi : i < 2 * N) : Wrapped N low high i (some (i - N))
  | noLow {i} (h : i < 0) (hl : low = false) : Wrapped N low high i none
  | noHigh {i} (h : N ≤ i) (hl : high = false) : Wrapped N low high i none

theorem wrap_wrapped {N : Int} {low high : Bool} {i : Int} (h0 : -N ≤ i) (h1 : i < 2 * N) :
    Wrapped N low high i (wrapIndex N low high i) := by
  unfold wrapIndex
  by_cases h : i < 0
  · cases hl : low
    · rw [if_pos ⟨h, rfl⟩]; exact .noLow h rfl
    · rw [if_neg (by simp)]
      simp only [if_pos h]
      rw [if_neg (by omega)]
      exact .below h rfl h0
  · rw [if_neg (fun hc => h hc.1)]
    simp only [if_neg h]
    by_cases h2 : i ≥ N
    · rw [if_pos h2]
      cases hh : high
      · exact .noHigh h2 rfl
      · exact .above h2 rfl h1
    · rw [if_neg h2]; exact .here (by omega)

/-- Where a node of a Cartesian grid really is; the panel number is ignored. -/
def CartLocated (NA NB : Int) (per : Periodic) (a b : Int) (place : Option (Int × Int × Int)) : Prop :=
  ∃ wa wb, Wrapped NA per.left per.right a wa ∧ Wrapped NB per.bottom per.top b wb ∧
    place = wa.bind fun a => wb.map fun b => (0, a, b)

theorem cartPlace_located {NA NB : Int} {per : Periodic} {a b : Int} (ha0 : -NA ≤ a) (ha1 : a < 2 * NA)
    (hb0 : -NB ≤ b) (hb1 : b < 2 * NB) : CartLocated NA NB per a b (cartPlace NA NB per a b) := by
  refine ⟨wrapIndex NA per.left per.right a, wrapIndex NB per.bottom per.top b, wrap_wrapped ha0 ha1,
    wrap_wrapped hb0 hb1, ?_⟩
  unfold cartPlace
  cases wrapIndex NA per.left per.right a with
  | none => rfl
  | some a =>
    simp only
    cases wrapIndex NB per.bottom per.top b with
    | none => rfl
    | some b => rfl

theorem cartLoop_answers {boxes : List Box} (NA NB : Nat) (per : Periodic) (hpart : Partition boxes (CartNode NA NB))
    (pts : List (Int × Int × Int))
    (hpts : ∀ pt ∈ pts, (-(NA : Int) ≤ pt.2.1 ∧ pt.2.1 < 2 * NA) ∧ (-(NB : Int) ≤ pt.2.2 ∧ pt.2.2 < 2 * NB)) :
    ∀ last, ∃ out, cartLoop NA NB per boxes last pts = .ok out ∧ out.length = pts.length ∧
      ∀ (m : Nat) p a b, pts[m]? = some (p, a, b) →
      ∃ ans, out[m]? = some ans ∧ Answer boxes (cartPlace NA NB per a b) ans := by
  have hd := hpart.1
  induction pts with
  | nil => intro last; exact ⟨[], rfl, rfl, by simp⟩
  | cons pt pts ih =>
    obtain ⟨p, a, b⟩ := pt
    intro last
    have extend : ∀ (ans : Option Nat) (last' : Option Nat), Answer boxes (cartPlace NA NB per a b) ans →
        ∃ out, (cartLoop NA NB per boxes last' pts).bind (fun r => .ok (ans :: r)) = .ok out ∧
        out.length = ((p, a, b) :: pts).length ∧
        ∀ (m : Nat) p' a' b', ((p, a, b) :: pts)[m]? = some (p', a', b') →
          ∃ ans', out[m]? = some ans' ∧ Answer boxes (cartPlace NA NB per a' b') ans' := by
      intro ans last' hans
      obtain ⟨out, i0, i1, i2⟩ := ih (fun q hq => hpts q (List.mem_cons_of_mem _ hq)) last'
      refine ⟨ans :: out, by rw [i0]; rfl, by simp [i1], ?_⟩
      intro m p' a' b' h
      rcases m with _ | m
      · simp at h; obtain ⟨rfl, rfl, rfl⟩ := h; exact ⟨ans, rfl, hans⟩
      · exact i2 m p' a' b' (by simpa using h)
    unfold cartLoop
    have hin := hpts (p, a, b) List.mem_cons_self
    simp only at hin
    have hloc := cartPlace_located (per := per) hin.1.1 hin.1.2 hin.2.1 hin.2.2
    cases hc : cartPlace NA NB per a b with
    | none =>
      simp only
      apply extend
      rw [hc]
      intro n; simp
    | some q =>
      obtain ⟨p', a', b'⟩ := q
      simp only
      by_cases hca : cached boxes last p' a' b' = true
      · rw [if_pos hca]
        apply extend
        obtain ⟨n, e, h⟩ := cached_owned hca
        rw [hc, e]
        exact answer_of_owned hd h
      · rw [if_neg hca]
        cases hs : scan p' a' b' boxes 0 with
        | some n =>
          simp only
          apply extend
          rw [hc]
          exact answer_of_owned hd ((scan_owned hd _ _ _ n).1 hs)
        | none =>
          exfalso
          rw [hc] at hloc
          obtain ⟨wa, wb, h1, h2, h3⟩ := hloc
          have hnode : CartNode NA NB p' a' b' := by
            cases h1 <;> cases h2 <;> simp at h3 <;> obtain ⟨rfl, rfl, rfl⟩ := h3 <;>
              refine ⟨rfl, ⟨?_, ?_⟩, ?_, ?_⟩ <;> omega
          obtain ⟨n, hn⟩ := (hpart.2 _ _ _).1 hnode
          rw [(scan_owned hd _ _ _ n).2 hn] at hs
          cases hs

/-- **C26 (Cartesian).**  For every layout that partitions the grid, and nodes no further outside than one grid
length, lookup does not throw and returns for each node the patch owning it after periodic wrapping, or none exactly
beyond a side that is not periodic; the panel number given is ignored. -/
theorem C26_cartesian (order baseA baseB ratio level : Nat) (per : Periodic)
    (boxes : List Box)
    (hpart : Partition boxes (CartNode (order * baseA * ratio ^ level) (order * baseB * ratio ^ level)))
    (pts : List (Int × Int × Int))
    (hpts : ∀ pt ∈ pts,
      (-(order * baseA * ratio ^ level : Int) ≤ pt.2.1 ∧ pt.2.1 < 2 * (order * baseA * ratio ^ level)) ∧
      (-(order * baseB * ratio ^ level : Int) ≤ pt.2.2 ∧ pt.2.2 < 2 * (order * baseB * ratio ^ level))) :
    ∃ out, cartLookup order baseA baseB ratio per boxes level pts = .ok out ∧ out.length = pts.length ∧
      ∀ (m : Nat) p a b, pts[m]? = some (p, a, b) → ∃ ans place, out[m]? = some ans ∧
        CartLocated (order * baseA * ratio ^ level) (order * baseB * ratio ^ level) per a b place ∧
        Answer boxes place ans ∧ (ans = none ↔ place = none) := by
  have eA : localResolution order baseA ratio level = ((order * baseA * ratio ^ level : Nat) : Int) := by
    unfold localResolution; rw [intPow_eq]; push_cast; ring
  have eB : localResolution order baseB ratio level = ((order * baseB * ratio ^ level : Nat) : Int) := by
    unfold localResolution; rw [intPow_eq]; push_cast; ring
  obtain ⟨out, h1, h2, h3⟩ := cartLoop_answers _ _ per hpart pts (by
    intro pt hpt; have := hpts pt hpt; push_cast; exact this) none
  refine ⟨out, ?_, h2, ?_⟩
  · unfold cartLookup; rw [if_neg (by omega)]
    rw [Int.toNat_natCast, eA, eB]; exact h1
  · intro m p a b hm
    obtain ⟨ans, e1, e2⟩ := h3 m p a b hm
    have hin := hpts _ (List.mem_of_getElem? hm)
    simp only at hin
    have hloc := cartPlace_located (per := per) (NA := (order * baseA * ratio ^ level : Nat))
      (NB := (order * baseB * ratio ^ level : Nat)) (a := a) (b := b)
      (by push_cast; exact hin.1.1) (by push_cast; exact hin.1.2) (by push_cast; exact hin.2.1)
      (by push_cast; exact hin.2.2)
    refine ⟨ans, _, e1, by push_cast at hloc ⊢; exact hloc, e2, ?_⟩
    cases hc : cartPlace (order * baseA * ratio ^ level : Nat) (order * baseB * ratio ^ level : Nat) per a b with
    | none =>
      rw [hc] at e2
      cases ans with
      | none => simp
      | some n => obtain ⟨_, _, _, h, _⟩ := (e2 n).1 rfl; cases h
    | some q =>
      obtain ⟨p', a', b'⟩ := q
      rw [hc] at e2 hloc
      obtain ⟨wa, wb, g1, g2, g3⟩ := hloc
      have hnode : CartNode (order * baseA * ratio ^ level) (order * baseB * ratio ^ level) p' a' b' := by
        generalize order * baseA * ratio ^ level = NA at *
        generalize order * baseB * ratio ^ level = NB at *
        cases g1 <;> cases g2 <;> simp at g3 <;> obtain ⟨rfl, rfl, rfl⟩ := g3 <;>
          refine ⟨rfl, ⟨?_, ?_⟩, ?_, ?_⟩ <;> omega
      obtain ⟨n, hn⟩ := (hpart.2 _ _ _).1 hnode
      rw [(e2 n).2 ⟨_, _, _, rfl, hn⟩]
      simp

/-- Two strips of 4 by 4 nodes, periodic in alpha only. -/
example : cartLookup 4 2 1 1 ⟨true, false, true, false⟩ (cartBoxes 1 4 2 1 2 1) 0 [(0, -1, 2), (0, 8, 0), (0, 3, 4)] =
    .ok [some 1, some 0, none] := by rfl

end Verif.Patch
