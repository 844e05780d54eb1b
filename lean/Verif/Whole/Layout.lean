import Verif.Whole.LayoutSpec
import Verif.Whole.PointProps
import Verif.Horiz.Congr
import Verif.Steps.RelateRuns

/-!
# Lemmas for C109 and C110: what the whole model does to the same element, and to the same node
-/

namespace Verif.Horiz

/-- With everything on levels, scalar diffusion ends and does what it says to each variable. -/
theorem scalar_nodes (M : Medium) (hM : ∀ c, M.located c = .node) (init : Data) (dt nu : ℝ) (scale : Bool) (u : Data) :
    ∃ r, applyScalar M init dt nu scale (-1) false u = some r ∧
      (∀ c, 2 ≤ c → c < M.components → ∀ x : Cell, x.v = .state c →
        r x = diffuseVar M init false dt (M.localNu nu scale) M.G.S.levels (.state c) u x) ∧
      (∀ c, c < M.G.S.tracers → ∀ x : Cell, x.v = .tracer c →
        r x = diffuseVar M init false dt (M.localNu nu scale) M.G.S.levels (.tracer c) u x) ∧
      ∀ c, c < 2 → ∀ x : Cell, x.v = .state c → r x = u x := by
  have lv : ∀ v, M.levelsOf v = some M.G.S.levels := by
    intro v
    cases v with
    | state c => simp [Medium.levelsOf, hM c]
    | tracer c => rfl
  have hc : M.chosen (-1) = some (((List.range M.components).drop 2).map Var.state ++
      (List.range M.G.S.tracers).map Var.tracer) := by simp [Medium.chosen]
  have all : ∀ (vs : List Var) (u : Data), ∃ r, vs.foldlM (fun u v => match M.levelsOf v with
      | none => none
      | some n => some (diffuseVar M init false dt (M.localNu nu scale) n v u)) u = some r := by
    intro vs
    induction vs with
    | nil => exact fun u => ⟨u, rfl⟩
    | cons w ws ih =>
      intro u
      obtain ⟨r, hr⟩ := ih (diffuseVar M init false dt (M.localNu nu scale) M.G.S.levels w u)
      refine ⟨r, ?_⟩
      rw [List.foldlM_cons, lv w]
      exact hr
  obtain ⟨r, hr⟩ := all (((List.range M.components).drop 2).map Var.state ++
      (List.range M.G.S.tracers).map Var.tracer) u
  obtain ⟨h1, h2⟩ := fold_some M init false dt _ _ (chosen_nodup M (-1) _ hc) u r hr
  have h3 : ∀ v ∈ ((List.range M.components).drop 2).map Var.state ++ (List.range M.G.S.tracers).map Var.tracer,
      ∀ x : Cell, x.v = v → r x = diffuseVar M init false dt (M.localNu nu scale) M.G.S.levels v u x := by
    intro v hv x hx
    obtain ⟨n, hn, h⟩ := h1 v hv
    rw [lv v] at hn
    cases hn
    exact h x hx
  have mem : ∀ c, c ∈ (List.range M.components).drop 2 ↔ 2 ≤ c ∧ c < M.components := by
    intro c
    rw [List.mem_iff_getElem]
    simp only [List.getElem_drop, List.getElem_range, List.length_drop, List.length_range]
    constructor
    · rintro ⟨i, hi, rfl⟩; omega
    · rintro ⟨h, h'⟩; exact ⟨c - 2, by omega, by omega⟩
  refine ⟨r, ?_, fun c c2 hc' => h3 _ ?_, fun c hc' => h3 _ ?_, fun c hc' x hx => h2 x ?_⟩
  · unfold applyScalar
    rw [hc]
    exact hr
  · rw [List.mem_append, List.mem_map]
    exact .inl ⟨c, (mem c).2 ⟨c2, hc'⟩, rfl⟩
  · rw [List.mem_append, List.mem_map, List.mem_map]
    exact .inr ⟨c, List.mem_range.2 hc', rfl⟩
  · rw [hx, List.mem_append, List.mem_map, List.mem_map]
    rintro (⟨d, hd, e⟩ | ⟨d, hd, e⟩)
    · cases e
      have := (mem c).1 hd
      omega
    · cases e

end Verif.Horiz

namespace Verif.Whole

open Horiz (Copy Twin)

variable {W W' : World}

/-! ### The same element -/

/-- Element `(a, b)` of patch `i` of the one is element `(a', b')` of patch `i'` of the other. -/
structure Meets (W W' : World) (i : Fin W.count) (i' : Fin W'.count) (a b a' b' : Nat) : Prop where
  inA : a < (W.tile i).M.G.S.elemA
  inB : b < (W.tile i).M.G.S.elemB
  inA' : a' < (W'.tile i').M.G.S.elemA
  inB' : b' < (W'.tile i').M.G.S.elemB
  panel : (W'.tile i').panel = (W.tile i).panel
  eA : (W'.tile i').eA + a' = (W.tile i).eA + a
  eB : (W'.tile i').eB + b' = (W.tile i).eB + b

theorem at_eq (S : Horiz.Shape) (a s : Nat) : S.at a s = S.halo + a * S.order + s := by
  unfold Horiz.Shape.at
  omega

theorem row_same (h h' o e e' a a' s : Nat) (he : e' + a' = e + a) :
    ((h' + a' * o + s : Nat) : Int) - h' + e' * o = ((h + a * o + s : Nat) : Int) - h + e * o := by
  have : ((e' : Int) + a') = e + a := by exact_mod_cast he
  push_cast
  linear_combination o * this

theorem row_split (h o n x : Nat) (ho : 0 < o) (h0 : h ≤ x) (h1 : x < h + n * o) :
    ∃ a s, a < n ∧ s < o ∧ x = h + a * o + s := by
  refine ⟨(x - h) / o, (x - h) % o, ?_, Nat.mod_lt _ ho, ?_⟩
  · exact (Nat.div_lt_iff_lt_mul ho).2 (by omega)
  · have := Nat.div_add_mod (x - h) o
    rw [mul_comm] at this
    omega

theorem row_meet (h h' o e e' a a' s s' : Nat) (hs : s < o) (hs' : s' < o)
    (he : ((h' + a' * o + s' : Nat) : Int) - h' + e' * o = ((h + a * o + s : Nat) : Int) - h + e * o) :
    s' = s ∧ e' + a' = e + a := by
  have key : (e' + a') * o + s' = (e + a) * o + s := by
    have : (((e' + a') * o + s' : Nat) : Int) = ((e + a) * o + s : Nat) := by
      push_cast at he ⊢
      linear_combination he
    exact_mod_cast this
  have ho : 0 < o := by omega
  have m : ∀ x y, y < o → (x * o + y) % o = y := fun x y hy => by
    rw [Nat.add_comm, Nat.add_mul_mod_self_right, Nat.mod_eq_of_lt hy]
  have d : ∀ x y, y < o → (x * o + y) / o = x := fun x y hy => by
    rw [Nat.add_comm, Nat.add_mul_div_right _ _ ho, Nat.div_eq_of_lt hy, zero_add]
  constructor
  · rw [← m (e' + a') s' hs', key, m _ _ hs]
  · rw [← d (e' + a') s' hs', key, d _ _ hs]

section
variable (hW : W.Tiled) (hW' : W'.Tiled) (hG : W.SameGrid W')
include hW hW' hG

theorem meets_at {i : Fin W.count} {i' : Fin W'.count} {a b a' b' : Nat} (h : Meets W W' i i' a b a' b') (s t : Nat) :
    W'.at_ i' ((W'.tile i').M.G.S.at a' s) ((W'.tile i').M.G.S.at b' t) =
      W.at_ i ((W.tile i).M.G.S.at a s) ((W.tile i).M.G.S.at b t) := by
  obtain ⟨s1, s2, -⟩ := hW.shape i
  obtain ⟨s1', s2', -⟩ := hW'.shape i'
  unfold World.at_
  rw [at_eq, at_eq, at_eq, at_eq, h.panel, s1, s2, s1', s2', hG.order, row_same _ _ _ _ _ _ _ _ h.eA, row_same _ _ _ _ _ _ _ _ h.eB]

omit hW' hG in
theorem interior_at (i : Fin W.count) {a b s t : Nat} (ha : a < (W.tile i).M.G.S.elemA) (hb : b < (W.tile i).M.G.S.elemB)
    (hs : s < (W.tile i).M.G.S.order) (ht : t < (W.tile i).M.G.S.order) :
    Horiz.Interior (W.tile i).M.G.S ((W.tile i).M.G.S.at a s) ((W.tile i).M.G.S.at b t) := by
  obtain ⟨s1, s2, -⟩ := hW.shape i
  have := W.element_interior hW i a b s t ha hb (by rw [← s1]; exact hs) (by rw [← s1]; exact ht)
  rw [at_eq, at_eq, s1, s2]
  exact this

theorem order_same (i : Fin W.count) (i' : Fin W'.count) : (W'.tile i').M.G.S.order = (W.tile i).M.G.S.order := by
  rw [(hW.shape i).1, (hW'.shape i').1, hG.order]

theorem levels_same (i : Fin W.count) (i' : Fin W'.count) : (W'.tile i').M.G.S.levels = (W.tile i).M.G.S.levels := by
  rw [(hW.shape i).2.2.1, (hW'.shape i').2.2.1, hG.levels]

theorem same_at {i : Fin W.count} {i' : Fin W'.count} {a b a' b' : Nat} (h : Meets W W' i i' a b a' b') {s t : Nat}
    (hs : s < (W.tile i).M.G.S.order) (ht : t < (W.tile i).M.G.S.order) :
    W.SameAt W' i i' ((W.tile i).M.G.S.at a s) ((W.tile i).M.G.S.at b t) ((W'.tile i').M.G.S.at a' s)
      ((W'.tile i').M.G.S.at b' t) := by
  have o := order_same hW hW' hG i i'
  exact hG.nodes _ _ _ _ _ _ (interior_at hW i h.inA h.inB hs ht)
    (interior_at hW' i' h.inA' h.inB' (by rw [o]; exact hs) (by rw [o]; exact ht)) (meets_at hW hW' hG h s t)

theorem twin {i : Fin W.count} {i' : Fin W'.count} {a b a' b' : Nat} (h : Meets W W' i i' a b a' b') :
    Twin (W.tile i).M (W'.tile i').M a b a' b' where
  order := order_same hW hW' hG i i'
  levels := levels_same hW hW' hG i i'
  basis := (hG.patches i i').1
  deltaA := (hG.patches i i').2.1
  deltaB := (hG.patches i i').2.2.1
  gravity := (hG.patches i i').2.2.2.1
  refLength := (hG.patches i i').2.2.2.2
  jac := fun _ _ hs ht => (same_at hW hW' hG h hs ht).1
  coriolis := fun _ _ hs ht => (same_at hW hW' hG h hs ht).2.1
  topo := fun _ _ hs ht => (same_at hW hW' hG h hs ht).2.2.1
  metA := fun _ _ d hs ht hd => ((same_at hW hW' hG h hs ht).2.2.2.1 d hd).1
  metB := fun _ _ d hs ht hd => ((same_at hW hW' hG h hs ht).2.2.2.1 d hd).2

theorem copy_state {c c' k : Nat} {x : W.Field × W.Field} {x' : W'.Field × W'.Field} (hx : W.SameField W' c c' x.1 x'.1)
    (hk : k < W.levels) {i : Fin W.count} {i' : Fin W'.count} {a b a' b' : Nat} (h : Meets W W' i i' a b a' b') :
    Copy (W.tile i).M (W'.tile i').M a b a' b' k (.state c) (.state c') (W.join x i) (W'.join x' i') :=
  fun s t hs ht => by
    have o := order_same hW hW' hG i i'
    exact hx _ _ _ _ _ _ k (interior_at hW i h.inA h.inB hs ht)
      (interior_at hW' i' h.inA' h.inB' (by rw [o]; exact hs) (by rw [o]; exact ht)) (meets_at hW hW' hG h s t) hk

theorem copy_tracer {c c' k : Nat} {x : W.Field × W.Field} {x' : W'.Field × W'.Field} (hx : W.SameField W' c c' x.2 x'.2)
    (hk : k < W.levels) {i : Fin W.count} {i' : Fin W'.count} {a b a' b' : Nat} (h : Meets W W' i i' a b a' b') :
    Copy (W.tile i).M (W'.tile i').M a b a' b' k (.tracer c) (.tracer c') (W.join x i) (W'.join x' i') :=
  fun s t hs ht => by
    have o := order_same hW hW' hG i i'
    exact hx _ _ _ _ _ _ k (interior_at hW i h.inA h.inB hs ht)
      (interior_at hW' i' h.inA' h.inB' (by rw [o]; exact hs) (by rw [o]; exact ht)) (meets_at hW hW' hG h s t) hk

/-- The same node is in the same element. -/
theorem same_of {v : W.Field} {v' : W'.Field} {c c' : Nat}
    (h : ∀ i i' a b a' b' k s t, Meets W W' i i' a b a' b' → k < W.levels → s < (W.tile i).M.G.S.order →
      t < (W.tile i).M.G.S.order → v' i' c' ((W'.tile i').M.G.S.at a' s) ((W'.tile i').M.G.S.at b' t) k =
        v i c ((W.tile i).M.G.S.at a s) ((W.tile i).M.G.S.at b t) k) : W.SameField W' c c' v v' := by
  intro i i' iA iB iA' iB' k hI hI' he hk
  obtain ⟨s1, s2, -⟩ := hW.shape i
  obtain ⟨s1', s2', -⟩ := hW'.shape i'
  have ho : 0 < W.order := by have := hW.order; omega
  unfold Horiz.Interior at hI hI'
  rw [s1, s2] at hI
  rw [s1', s2', hG.order] at hI'
  obtain ⟨a, s, ha, hs, rfl⟩ := row_split _ _ _ iA ho hI.1 hI.2.1
  obtain ⟨b, t, hb, ht, rfl⟩ := row_split _ _ _ iB ho hI.2.2.1 hI.2.2.2
  obtain ⟨a', s', ha', hs', rfl⟩ := row_split _ _ _ iA' ho hI'.1 hI'.2.1
  obtain ⟨b', t', hb', ht', rfl⟩ := row_split _ _ _ iB' ho hI'.2.2.1 hI'.2.2.2
  unfold World.at_ at he
  rw [hG.order] at he
  simp only [Prod.mk.injEq] at he
  obtain ⟨hp, eA, eB⟩ := he
  obtain ⟨rfl, mA⟩ := row_meet _ _ _ _ _ _ _ _ _ hs hs' eA
  obtain ⟨rfl, mB⟩ := row_meet _ _ _ _ _ _ _ _ _ ht ht' eB
  have := h i i' a b a' b' k s' t' ⟨ha, hb, ha', hb', hp, mA, mB⟩ hk (by rw [s1]; exact hs) (by rw [s1]; exact ht)
  rw [at_eq, at_eq, at_eq, at_eq, s1, s2, s1', s2', hG.order] at this
  exact this

theorem same_state_of {D : Fin W.count → Horiz.Data} {D' : Fin W'.count → Horiz.Data} {c c' : Nat}
    (h : ∀ i i' a b a' b' k, Meets W W' i i' a b a' b' → k < W.levels →
      Copy (W.tile i).M (W'.tile i').M a b a' b' k (.state c) (.state c') (D i) (D' i')) :
    W.SameField W' c c' (W.split D).1 (W'.split D').1 :=
  same_of hW hW' hG fun i i' a b a' b' k s t hm hk hs ht => h i i' a b a' b' k hm hk s t hs ht

theorem same_tracer_of {D : Fin W.count → Horiz.Data} {D' : Fin W'.count → Horiz.Data} {c c' : Nat}
    (h : ∀ i i' a b a' b' k, Meets W W' i i' a b a' b' → k < W.levels →
      Copy (W.tile i).M (W'.tile i').M a b a' b' k (.tracer c) (.tracer c') (D i) (D' i')) :
    W.SameField W' c c' (W.split D).2 (W'.split D').2 :=
  same_of hW hW' hG fun i i' a b a' b' k s t hm hk hs ht => h i i' a b a' b' k hm hk s t hs ht

theorem area_same {i : Fin W.count} {i' : Fin W'.count} {a b a' b' : Nat} (h : Meets W W' i i' a b a' b') {s t : Nat}
    (hs : s < (W.tile i).M.G.S.order) (ht : t < (W.tile i).M.G.S.order) (k : Nat) :
    W'.area i' ((W'.tile i').M.G.S.at a' s) ((W'.tile i').M.G.S.at b' t) k =
      W.area i ((W.tile i).M.G.S.at a s) ((W.tile i).M.G.S.at b t) k := by
  have o := order_same hW hW' hG i i'
  have j := (same_at hW hW' hG h hs ht).1
  rw [at_eq, at_eq, at_eq, at_eq] at j ⊢
  rw [W.area_at i a b k s t hs ht, W'.area_at i' a' b' k s t (by rw [o]; exact hs) (by rw [o]; exact ht), j, hG.weight,
    hG.level, (hG.patches i i').2.1, (hG.patches i i').2.2.1]

/-! ### The explicit step -/

variable (hS : W.ShallowWater) (hS' : W'.ShallowWater)

include hS in
theorem explicit_state (dt : ℝ) {x y : W.Field × W.Field} {x' y' : W'.Field × W'.Field}
    (hx : W.SameState W' x.1 x'.1) (hy : W.SameState W' y.1 y'.1) :
    W.SameState W' (W.stepExplicit dt x y).1 (W'.stepExplicit dt x' y').1 := fun c hc => by
  refine same_state_of hW hW' hG fun i i' a b a' b' k hm hk => ?_
  have T := twin hW hW' hG hm
  have hk' : k < (W.tile i).M.G.S.levels := by rw [(hW.shape i).2.2.1]; exact hk
  have h3 := hS.three
  have c0 := copy_state hW hW' hG (hx 0 (by omega)) hk hm
  have c1 := copy_state hW hW' hG (hx 1 (by omega)) hk hm
  have c2 := copy_state hW hW' hG (hx 2 (by omega)) hk hm
  have st := T.step hm.inA hm.inB hm.inA' hm.inB' hk' dt c0 c1 c2 c (copy_state hW hW' hG (hy c hc) hk hm)
  have ref : ∀ d, d < 2 → Copy (W.tile i).M (W'.tile i').M a b a' b' k (.state d) (.state d) (W.tile i).M.ref
      (W'.tile i').M.ref := fun d hd s t hs ht => ((same_at hW hW' hG hm hs ht).2.2.2.2 k hk).2 d hd
  unfold World.explicitOn
  simp only [hG.uniform, hG.xz, hG.nuUniform]
  intro s t hs ht
  rw [Horiz.filter_cell, Horiz.filter_cell]
  revert s t
  show Copy (W.tile i).M (W'.tile i').M a b a' b' k (.state c) (.state c) _ _
  split_ifs
  · exact T.vector hm.inA hm.inB hm.inA' hm.inB' hk' _ _ _ _ _ (ref 0 (by omega)) (ref 1 (by omega)) c
      (T.vector hm.inA hm.inB hm.inA' hm.inB' hk' _ _ _ _ _ c0 c1 c st)
  · exact st

include hS in
theorem explicit_tracers (dt : ℝ) {x y : W.Field × W.Field} {x' y' : W'.Field × W'.Field}
    {c c' : Nat} (hc : c < W.tracers) (hc' : c' < W'.tracers) (hx : W.SameState W' x.1 x'.1)
    (hx2 : W.SameField W' c c' x.2 x'.2) (hy : W.SameField W' c c' y.2 y'.2) :
    W.SameField W' c c' (W.stepExplicit dt x y).2 (W'.stepExplicit dt x' y').2 := by
  refine same_tracer_of hW hW' hG fun i i' a b a' b' k hm hk => ?_
  have T := twin hW hW' hG hm
  have hk' : k < (W.tile i).M.G.S.levels := by rw [(hW.shape i).2.2.1]; exact hk
  have h3 := hS.three
  have t1 : c < (W.tile i).M.G.S.tracers := by rw [(hW.shape i).2.2.2]; exact hc
  have t2 : c' < (W'.tile i').M.G.S.tracers := by rw [(hW'.shape i').2.2.2]; exact hc'
  have st := T.stepTracer hm.inA hm.inB hm.inA' hm.inB' hk' dt (copy_state hW hW' hG (hx 0 (by omega)) hk hm)
    (copy_state hW hW' hG (hx 1 (by omega)) hk hm) t1 t2 (copy_tracer hW hW' hG hx2 hk hm)
    (copy_tracer hW hW' hG hy hk hm)
  unfold World.explicitOn
  simp only [hG.uniform, hG.xz, hG.nuUniform]
  refine T.filter hm.inA hm.inB hm.inA' hm.inB' hk' _ _ (fun s t hs ht => area_same hW hW' hG hm hs ht k) t1 t2 ?_
  split_ifs
  · exact Twin.vectorTracer _ _ _ _ _ _ _ (Twin.vectorTracer _ _ _ _ _ _ _ st)
  · exact st

/-! ### Diffusion -/

include hS hS' in
theorem diffuse_state (dt nuScalar dt' nuDiv nuVort : ℝ) (scale : Bool) {x y : W.Field × W.Field}
    {x' y' : W'.Field × W'.Field} (hx : W.SameState W' x.1 x'.1) (hy : W.SameState W' y.1 y'.1) :
    W.SameState W' (W.diffuse dt nuScalar dt' nuDiv nuVort scale x y).1
      (W'.diffuse dt nuScalar dt' nuDiv nuVort scale x' y').1 := fun c hc => by
  refine same_state_of hW hW' hG fun i i' a b a' b' k hm hk => ?_
  have T := twin hW hW' hG hm
  have hk' : k < (W.tile i).M.G.S.levels := by rw [(hW.shape i).2.2.1]; exact hk
  have h3 := hS.three
  have o := order_same hW hW' hG i i'
  have l := levels_same hW hW' hG i i'
  obtain ⟨r, hr, r1, -, r3⟩ := Horiz.scalar_nodes (W.tile i).M (hS.nodes i) (W.join x i) dt nuScalar scale (W.join y i)
  obtain ⟨r', hr', r1', -, r3'⟩ := Horiz.scalar_nodes (W'.tile i').M (hS'.nodes i') (W'.join x' i') dt nuScalar scale
    (W'.join y' i')
  simp only [hr, hr', Option.getD_some, hG.xz]
  refine T.vector hm.inA hm.inB hm.inA' hm.inB' hk' _ _ _ _ _ (copy_state hW hW' hG (hx 0 (by omega)) hk hm)
    (copy_state hW hW' hG (hx 1 (by omega)) hk hm) c ?_
  have cy := copy_state hW hW' hG (hy c hc) hk hm
  by_cases h2 : c < 2
  · intro s t hs ht
    rw [r3 c h2 _ rfl, r3' c h2 _ rfl]
    exact cy s t hs ht
  · intro s t hs ht
    rw [r1 c (by omega) (by rw [hS.counted]; exact hc) _ rfl,
      r1' c (by omega) (by rw [hS'.counted, hG.components]; exact hc) _ rfl, T.localNu, l]
    refine T.diffuse hm.inA hm.inB hm.inA' hm.inB' _ hk' (fun s t hs ht => ?_) _ _ (copy_state hW hW' hG (hx c hc) hk hm) cy s t hs ht
    unfold Horiz.Medium.jacOf
    simp only [hS.nodes, hS'.nodes]
    exact ((same_at hW hW' hG hm hs ht).2.2.2.2 k hk).1

include hS hS' in
theorem diffuse_tracers (dt nuScalar dt' nuDiv nuVort : ℝ) (scale : Bool) {x y : W.Field × W.Field}
    {x' y' : W'.Field × W'.Field} {c c' : Nat} (hc : c < W.tracers) (hc' : c' < W'.tracers)
    (hx : W.SameField W' c c' x.2 x'.2) (hy : W.SameField W' c c' y.2 y'.2) :
    W.SameField W' c c' (W.diffuse dt nuScalar dt' nuDiv nuVort scale x y).2
      (W'.diffuse dt nuScalar dt' nuDiv nuVort scale x' y').2 := by
  refine same_tracer_of hW hW' hG fun i i' a b a' b' k hm hk => ?_
  have T := twin hW hW' hG hm
  have hk' : k < (W.tile i).M.G.S.levels := by rw [(hW.shape i).2.2.1]; exact hk
  have l := levels_same hW hW' hG i i'
  obtain ⟨r, hr, -, r2, -⟩ := Horiz.scalar_nodes (W.tile i).M (hS.nodes i) (W.join x i) dt nuScalar scale (W.join y i)
  obtain ⟨r', hr', -, r2', -⟩ := Horiz.scalar_nodes (W'.tile i').M (hS'.nodes i') (W'.join x' i') dt nuScalar scale
    (W'.join y' i')
  simp only [hr, hr', Option.getD_some, hG.xz]
  refine Twin.vectorTracer _ _ _ _ _ _ _ fun s t hs ht => ?_
  rw [r2 c (by rw [(hW.shape i).2.2.2]; exact hc) _ rfl, r2' c' (by rw [(hW'.shape i').2.2.2]; exact hc') _ rfl, T.localNu, l]
  exact T.diffuse (v := .tracer c) (v' := .tracer c') hm.inA hm.inB hm.inA' hm.inB' _ hk' (fun s t hs ht => ((same_at hW hW' hG hm hs ht).2.2.2.2 k hk).1) _ _
    (copy_tracer hW hW' hG hx hk hm) (copy_tracer hW hW' hG hy hk hm) s t hs ht

theorem filter_same {w : W.Field} {w' : W'.Field} {c c' : Nat} (hc : c < W.tracers) (hc' : c' < W'.tracers)
    (h : W.SameField W' c c' w w') : W.SameField W' c c' (W.filter w) (W'.filter w') := by
  refine same_tracer_of hW hW' hG fun i i' a b a' b' k hm hk => ?_
  have hk' : k < (W.tile i).M.G.S.levels := by rw [(hW.shape i).2.2.1]; exact hk
  exact (twin hW hW' hG hm).filter hm.inA hm.inB hm.inA' hm.inB' hk' _ _ (fun s t hs ht => area_same hW hW' hG hm hs ht k)
    (by rw [(hW.shape i).2.2.2]; exact hc) (by rw [(hW'.shape i').2.2.2]; exact hc') (copy_tracer hW hW' hG (x := (_, w)) (x' := (_, w')) h hk hm)

/-! ### Averaging -/

/-- Each node of the one is a node of the other. -/
theorem node_of (i' : Fin W'.count) (iA' iB' : Nat) (hI : Horiz.Interior (W'.tile i').M.G.S iA' iB') :
    ∃ i iA iB, Horiz.Interior (W.tile i).M.G.S iA iB ∧ W'.at_ i' iA' iB' = W.at_ i iA iB := by
  have hn := W'.at_mem hW' i' iA' iB' hI
  have hn' : W'.at_ i' iA' iB' ∈ W.nodes := by
    generalize W'.at_ i' iA' iB' = q at hn ⊢
    obtain ⟨p, g, h⟩ := q
    rw [W'.mem_nodes, hG.kind, hG.order, hG.elemA, hG.elemB] at hn
    rw [W.mem_nodes]
    exact hn
  generalize W'.at_ i' iA' iB' = q at hn' ⊢
  obtain ⟨p, g, h⟩ := q
  obtain ⟨i, hi⟩ := W.contains_some hW p g h hn'
  obtain ⟨a1, ⟨a2, a3⟩, a4, a5⟩ := (W.contains_iff hW i p g h).mp hi
  obtain ⟨s1, s2, -⟩ := hW.shape i
  rw [add_mul] at a3 a5
  obtain ⟨iA, hA⟩ : ∃ iA : Nat, (iA : Int) = g - (W.tile i).eA * W.order + W.halo :=
    ⟨(g - (W.tile i).eA * W.order + W.halo).toNat, by omega⟩
  obtain ⟨iB, hB⟩ : ∃ iB : Nat, (iB : Int) = h - (W.tile i).eB * W.order + W.halo :=
    ⟨(h - (W.tile i).eB * W.order + W.halo).toNat, by omega⟩
  refine ⟨i, iA, iB, ?_, ?_⟩
  · unfold Horiz.Interior
    rw [s1, s2]
    zify
    refine ⟨?_, ?_, ?_, ?_⟩ <;> linarith
  · unfold World.at_
    rw [a1, hA, hB]
    simp

theorem same_holds {v : W.Field} {v' : W'.Field} {c c' k : Nat} (h : W.SameField W' c c' v v') (hk : k < W.levels)
    {f : Halo.Node → ℝ} (hf : W.Holds v c k f) : W'.Holds v' c' k f := fun i' iA' iB' hI => by
  obtain ⟨i, iA, iB, hI', he⟩ := node_of hW hW' hG i' iA' iB' hI
  rw [h i i' iA iB iA' iB' k hI' hI he hk, he]
  exact hf i iA iB hI'

omit hW hW' hG in
theorem same_of_holds {v : W.Field} {v' : W'.Field} {c c' : Nat}
    (h : ∀ k, k < W.levels → ∃ f, W.Holds v c k f ∧ W'.Holds v' c' k f) : W.SameField W' c c' v v' := by
  intro i i' iA iB iA' iB' k hI hI' he hk
  obtain ⟨f, h1, h2⟩ := h k hk
  rw [h1 i iA iB hI, h2 i' iA' iB' hI', he]

omit hW hW' in
theorem sharing_same (xA xB : Nat → ℝ) : W'.sharing xA xB = W.sharing xA xB := by
  funext n
  unfold World.sharing
  rw [hG.kind, hG.order, hG.elemA, hG.elemB]

variable {m : Halo.Momenta} {xA xB : Nat → ℝ} (hL : W.Laid m xA xB) (hL' : W'.Laid m xA xB)

include hL hL' in
theorem dss_tracers {w : W.Field} {w' : W'.Field} {c c' : Nat} (hc : c < W.tracers) (hc' : c' < W'.tracers)
    (h : W.SameField W' c c' w w') : W.SameField W' c c' (W.dssTracers w) (W'.dssTracers w') :=
  same_of_holds fun k hk => by
    have hf : W.Holds w c k (W.field w c k) := fun i iA iB hI => (W.field_own hW w c k i iA iB hI).symm
    refine ⟨_, C105_tracers W hW m xA xB hL w c k hc hk _ hf, ?_⟩
    have := C105_tracers W' hW' m xA xB hL' w' c' k hc' (by rw [hG.levels]; exact hk) _ (same_holds hW hW' hG h hk hf)
    rwa [sharing_same hG] at this

include hL hL' hS in
theorem dss_state {v : W.Field} {v' : W'.Field} (h : W.SameState W' v v') :
    W.SameState W' (W.dssState v) (W'.dssState v') := fun c hc => by
  have h3 := hS.three
  by_cases hs : W.Scalar c
  · refine same_of_holds fun k hk => ?_
    have hf : W.Holds v c k (W.field v c k) := fun i iA iB hI => (W.field_own hW v c k i iA iB hI).symm
    refine ⟨_, C105_state W hW m xA xB hL v c k hc hk hs _ hf, ?_⟩
    have := C105_state W' hW' m xA xB hL' v' c k (by rw [hG.components]; exact hc) (by rw [hG.levels]; exact hk)
      (fun e => hs (hG.kind ▸ e)) _ (same_holds hW hW' hG (h c hc) hk hf)
    rwa [sharing_same hG] at this
  · unfold World.Scalar at hs
    push Not at hs
    obtain ⟨ks, hc2⟩ := hs
    intro i i' iA iB iA' iB' k hI hI' he hk
    obtain ⟨w, hw⟩ := W.moves_exist hW ks m xA v k
    have hw' : W'.Moves m xA v' k w := fun j jA jB hJ => by
      obtain ⟨l, lA, lB, hl, e⟩ := node_of hW hW' hG j jA jB hJ
      have := hw l lA lB hl
      rw [h 0 (by omega) l j lA lB jA jB k hl hJ e hk, h 1 (by omega) l j lA lB jA jB k hl hJ e hk, e,
        hG.order, hG.elemA, show (W'.tile j).panel = (W.tile l).panel from congrArg Prod.fst e]
      exact this
    have e1 := C105_velocity W hW m xA xB hL ks (by omega) v k hk w hw i iA iB hI
    have e2 := C105_velocity W' hW' m xA xB hL' (hG.kind.trans ks) (by rw [hG.components]; omega) v' k
      (by rw [hG.levels]; exact hk) w hw' i' iA' iB' hI'
    rw [he, hG.order, hG.elemA, show (W'.tile i').panel = (W.tile i).panel from congrArg Prod.fst he] at e2
    have e := Halo.components_unique _ (W.placed_ok hW ks i).panel _ _ _ _ _ e2 e1
    have : c = 0 ∨ c = 1 := by omega
    rcases this with rfl | rfl
    · exact congrArg Prod.fst e
    · exact congrArg Prod.snd e

end

end Verif.Whole
