import Verif.Horiz.Diffusion
import Verif.Horiz.PartsLemmas

/-!
# What the scalar diffusion adds at each node
-/

namespace Verif.Horiz

theorem stiffA_weak (G : Geometry) (B : Basis) (f : Nat → Nat → ℝ) (i j : Nat) :
    stiffA G B f i j = -weakA G B f i j := by
  rw [weakA_sum]
  unfold stiffA
  rw [loop_add]
  ring

theorem stiffB_weak (G : Geometry) (B : Basis) (f : Nat → Nat → ℝ) (i j : Nat) :
    stiffB G B f i j = -weakB G B f i j := by
  rw [weakB_sum]
  unfold stiffB
  rw [loop_add]
  ring

section

variable (M : Medium) (init : Data) (removeRef : Bool) (dt nu : ℝ) (n : Nat) (v : Var)

theorem diffusePoint_touches (a b k i j : Nat) : Touches (diffusePoint M init removeRef v a b k dt nu i j)
    (Node (· = v) (M.G.S.at a i) (M.G.S.at b j) k) := by
  have hiff : ∀ x : Cell, Node (· = v) (M.G.S.at a i) (M.G.S.at b j) k x ↔ x = ⟨v, M.G.S.at a i, M.G.S.at b j, k⟩ := by
    rintro ⟨w, iA, iB, l⟩
    simp [Node]
  constructor
  · intro u x hx
    rw [hiff] at hx
    simp [diffusePoint, put, hx]
  · intro u u' he x hx
    have hx' := (hiff x).1 hx
    have := he x hx
    subst hx'
    simp [diffusePoint, put, this]

theorem diffuseVar_out (u : Data) (x : Cell) (h : x.v ≠ v) : diffuseVar M init removeRef dt nu n v u x = u x := by
  refine (elems_touch (· = v) M.G.S n (fun a b k u =>
    loop M.G.S.order (fun i u => loop M.G.S.order (fun j u => diffusePoint M init removeRef v a b k dt nu i j u) u) u)
    (fun a b k _ _ _ => nodes_touch _ M.G.S a b k _ (fun i j _ _ =>
      diffusePoint_touches M init removeRef dt nu v a b k i j))).1.out u x ?_
  rintro ⟨a, -, b, -, k, -, i, -, j, -, h1, -⟩
  exact h h1

theorem diffuseVar_congr (u u' : Data) (h : ∀ x : Cell, x.v = v → u x = u' x) (x : Cell) (hx : x.v = v) :
    diffuseVar M init removeRef dt nu n v u x = diffuseVar M init removeRef dt nu n v u' x := by
  have t := (elems_touch (· = v) M.G.S n (fun a b k u =>
    loop M.G.S.order (fun i u => loop M.G.S.order (fun j u => diffusePoint M init removeRef v a b k dt nu i j u) u) u)
    (fun a b k _ _ _ => nodes_touch _ M.G.S a b k _ (fun i j _ _ =>
      diffusePoint_touches M init removeRef dt nu v a b k i j))).1
  by_cases hT : ∃ a, a < M.G.S.elemA ∧ ∃ b, b < M.G.S.elemB ∧ ∃ k, k < n ∧ Elem (· = v) M.G.S a b k x
  · refine t.inn u u' ?_ x hT
    rintro y ⟨a, -, b, -, k, -, i, -, j, -, h1, -⟩
    exact h y h1
  · exact (t.out u x hT).trans ((h x hx).trans (t.out u' x hT).symm)

theorem diffuseVar_value (u : Data) (a b k i j : Nat) (ha : a < M.G.S.elemA) (hb : b < M.G.S.elemB) (hk : k < n)
    (hi : i < M.G.S.order) (hj : j < M.G.S.order) :
    value M.G.S (diffuseVar M init removeRef dt nu n v u) v a b k i j = value M.G.S u v a b k i j +
      dt * nu * (1 / M.jacOf v (M.G.S.at a i) (M.G.S.at b j) k) *
        (weakA M.G M.B (gradientA M v a b k (buffer M init removeRef v a b k)) i j +
          weakB M.G M.B (gradientB M v a b k (buffer M init removeRef v a b k)) i j) := by
  rw [value_at, value_at]
  have h1 := (elems_touch (· = v) M.G.S n (fun a b k u =>
    loop M.G.S.order (fun i u => loop M.G.S.order (fun j u => diffusePoint M init removeRef v a b k dt nu i j u) u) u)
    (fun a b k _ _ _ => nodes_touch _ M.G.S a b k _ (fun i j _ _ =>
      diffusePoint_touches M init removeRef dt nu v a b k i j))).2 u a b k
    ha hb hk ⟨v, M.G.S.at a i, M.G.S.at b j, k⟩ ⟨i, hi, j, hj, rfl, rfl, rfl, rfl⟩
  have h2 := nodes_at (· = v) M.G.S a b k _ (fun i j _ _ => diffusePoint_touches M init removeRef dt nu v a b k i j)
    u i j hi hj ⟨v, M.G.S.at a i, M.G.S.at b j, k⟩ ⟨rfl, rfl, rfl, rfl⟩
  unfold diffuseVar
  rw [h1, h2]
  unfold diffusePoint
  rw [stiffA_weak, stiffB_weak]
  simp only [put, if_true]
  ring

end

theorem fold_some (M : Medium) (init : Data) (removeRef : Bool) (dt nu : ℝ) (vs : List Var) (hn : vs.Nodup)
    (u r : Data) (h : vs.foldlM (fun u v => match M.levelsOf v with
      | none => none
      | some n => some (diffuseVar M init removeRef dt nu n v u)) u = some r) :
    (∀ v ∈ vs, ∃ n, M.levelsOf v = some n ∧ ∀ x : Cell, x.v = v → r x = diffuseVar M init removeRef dt nu n v u x) ∧
      ∀ x : Cell, x.v ∉ vs → r x = u x := by
  induction vs generalizing u with
  | nil =>
    simp only [List.foldlM_nil] at h
    cases h
    exact ⟨fun v hv => absurd hv (by simp), fun _ _ => rfl⟩
  | cons w ws ih =>
    rw [List.foldlM_cons] at h
    obtain ⟨hw, hws⟩ := List.nodup_cons.1 hn
    cases hl : M.levelsOf w with
    | none => rw [hl] at h; cases h
    | some n =>
      rw [hl] at h
      obtain ⟨i1, i2⟩ := ih hws _ h
      constructor
      · intro v hv
        rcases List.mem_cons.1 hv with rfl | hv
        · refine ⟨n, hl, fun x hx => i2 x (by rw [hx]; exact hw)⟩
        · obtain ⟨m, hm, hr⟩ := i1 v hv
          refine ⟨m, hm, fun x hx => (hr x hx).trans (diffuseVar_congr M init removeRef dt nu m v _ _ ?_ x hx)⟩
          intro y hy
          refine diffuseVar_out M init removeRef dt nu n w u y ?_
          rintro he
          exact hw (by rw [← he, hy]; exact hv)
      · intro x hx
        rw [i2 x (fun h => hx (List.mem_cons_of_mem _ h))]
        exact diffuseVar_out M init removeRef dt nu n w u x (fun h => hx (by rw [h]; exact List.mem_cons_self))

theorem chosen_nodup (M : Medium) (ic : Int) (vs : List Var) (h : M.chosen ic = some vs) : vs.Nodup := by
  unfold Medium.chosen at h
  split at h
  · cases h
  · split at h
    · split at h
      · cases h
      · cases h; simp
    · cases h
      rw [List.nodup_append]
      refine ⟨?_, ?_, ?_⟩
      · refine List.Nodup.map (fun _ _ h => by injection h) (List.Sublist.nodup (List.drop_sublist _ _) List.nodup_range)
      · exact List.Nodup.map (fun _ _ h => by injection h) List.nodup_range
      · intro x hx y hy he
        obtain ⟨c, -, rfl⟩ := List.mem_map.1 hx
        obtain ⟨d, -, rfl⟩ := List.mem_map.1 hy
        cases he

/-- **The diffusion, variable by variable and node by node.** -/
theorem scalar_value (M : Medium) (init : Data) (dt nu : ℝ) (scale : Bool) (ic : Int) (removeRef : Bool) (u r : Data)
    (h : applyScalar M init dt nu scale ic removeRef u = some r) : ∃ vs, M.chosen ic = some vs ∧
      (∀ v ∈ vs, ∃ n, M.levelsOf v = some n ∧ ∀ a b k i j, a < M.G.S.elemA → b < M.G.S.elemB → k < n →
        i < M.G.S.order → j < M.G.S.order → value M.G.S r v a b k i j = value M.G.S u v a b k i j +
          dt * M.localNu nu scale * (1 / M.jacOf v (M.G.S.at a i) (M.G.S.at b j) k) *
          (weakA M.G M.B (gradientA M v a b k (buffer M init removeRef v a b k)) i j +
            weakB M.G M.B (gradientB M v a b k (buffer M init removeRef v a b k)) i j)) ∧
      ∀ x : Cell, x.v ∉ vs → r x = u x := by
  unfold applyScalar at h
  cases hc : M.chosen ic with
  | none => rw [hc] at h; cases h
  | some vs =>
    rw [hc] at h
    obtain ⟨h1, h2⟩ := fold_some M init removeRef dt _ vs (chosen_nodup M ic vs hc) u r h
    refine ⟨vs, rfl, ?_, h2⟩
    intro v hv
    obtain ⟨n, hn, hr⟩ := h1 v hv
    refine ⟨n, hn, fun a b k i j ha hb hk hi hj => ?_⟩
    rw [← diffuseVar_value M init removeRef dt _ n v u a b k i j ha hb hk hi hj, value_at, value_at]
    exact hr _ rfl

end Verif.Horiz
