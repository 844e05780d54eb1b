import Verif.Whole.Vectors
import Verif.Whole.Flat
import Verif.Metric.Props

/-!
# Every pair of numbers is a pair of components; means of one value
-/

namespace Verif.Whole

open Halo (Node Momenta Placed Components coord angle copies Line)
open Verif.Sphere

theorem components_exist (m : Momenta) (q : Int) (hq : Panel.IsPanel q) (X Y : ℝ) (v : ℝ × ℝ) :
    ∃ w : Vec3, Components m q X Y v w := by
  cases m with
  | contravariant => exact ⟨physical q X Y v.1 v.2, rfl⟩
  | covariant =>
    obtain ⟨g1, g2, g3⟩ := Metric.dot_tangents q (Halo.sphere_panel hq) X Y
    have comm : ∀ u v : Vec3, dot u v = dot v u := by intro u v; simp [dot]; ring
    have lin : ∀ (r s : ℝ) (u v w : Vec3), dot (r • u + s • v) w = r * dot u w + s * dot v w := by
      intro r s u v w; simp [dot]; ring
    have d : 0 < 1 + X * X + Y * Y := by nlinarith [mul_self_nonneg X, mul_self_nonneg Y]
    have dx : 0 < 1 + X * X := by nlinarith [mul_self_nonneg X]
    have dy : 0 < 1 + Y * Y := by nlinarith [mul_self_nonneg Y]
    refine ⟨((v.1 * (1 + Y * Y) + v.2 * (X * Y)) * (1 + X * X + Y * Y) / ((1 + X * X) * (1 + Y * Y))) • tangentA q X Y +
      ((v.1 * (X * Y) + v.2 * (1 + X * X)) * (1 + X * X + Y * Y) / ((1 + X * X) * (1 + Y * Y))) • tangentB q X Y, ?_, ?_⟩
    · rw [lin, comm (tangentB q X Y), g1, g2]
      field_simp
      ring
    · rw [lin, g2, g3]
      field_simp
      ring

variable (W : World)

/-- Every state is the components of some vectors. -/
theorem World.moves_exist (hW : W.Tiled) (hk : W.kind = .sphere) (m : Momenta) (x : Nat → ℝ) (v : W.Field) (k : Nat) :
    ∃ w, W.Moves m x v k w := by
  classical
  have hp : ∀ n ∈ W.nodes, ∃ u : Vec3, Components m n.1 (coord W.order W.elemA x n.2.1) (coord W.order W.elemA x n.2.2)
      (W.field v 0 k n, W.field v 1 k n) u := by
    rintro ⟨p, g, h⟩ hn
    rw [W.mem_nodes, hk] at hn
    have : p < 6 := hn.1.2
    exact components_exist m p ⟨hn.1.1, by omega⟩ _ _ _
  refine ⟨fun n => if hn : n ∈ W.nodes then (hp n hn).choose else 0, fun i iA iB hI => ?_⟩
  have hn := W.at_mem hW i iA iB hI
  simp only
  rw [dif_pos hn]
  have := (hp _ hn).choose_spec
  have e0 : W.field v 0 k (W.at_ i iA iB) = v i 0 iA iB k := W.field_own hW v 0 k i iA iB hI
  have e1 : W.field v 1 k (W.at_ i iA iB) = v i 1 iA iB k := W.field_own hW v 1 k i iA iB hI
  rw [← e0, ← e1]
  exact this

/-! ### Sharing -/

variable (xA xB : Nat → ℝ)

theorem World.self_sharing (n : Node) (hW : W.Tiled) (hn : n ∈ W.nodes) : n ∈ W.sharing xA xB n := by
  unfold World.sharing
  cases hk : W.kind with
  | sphere =>
    simp only
    rw [W.nodes_sphere hW hk] at hn
    unfold copies
    simp [hn]
  | plane =>
    simp only
    unfold planeCopies
    rw [World.nodes, hk] at hn
    simp only [Finset.mem_filter]
    exact ⟨hn, .inl rfl, .inl rfl⟩

theorem World.sharing_nodes (hW : W.Tiled) (n n' : Node) (h : n' ∈ W.sharing xA xB n) : n' ∈ W.nodes := by
  unfold World.sharing at h
  cases hk : W.kind with
  | sphere =>
    rw [hk] at h
    simp only at h
    unfold copies at h
    rw [W.nodes_sphere hW hk]
    exact (Finset.mem_filter.mp h).1
  | plane =>
    classical
    rw [hk] at h
    simp only at h
    unfold planeCopies at h
    rw [World.nodes, hk]
    exact (Finset.mem_filter.mp h).1

theorem place_trans {p res : Int} {x : Nat → ℝ} (L : Line p res x) (a b c : Int) (a0 : 0 ≤ a) (a1 : a < p * res)
    (b0 : 0 ≤ b) (b1 : b < p * res) (c0 : 0 ≤ c) (c1 : c < p * res) (h : SamePlace p res x a b) :
    SamePlace p res x b c ↔ SamePlace p res x a c := by
  have hw := wrap_twin p res a L.order a0 a1
  rw [same_place L a b a0 a1 b0 b1] at h
  rw [same_place L b c b0 b1 c0 c1, same_place L a c a0 a1 c0 c1]
  rcases h with rfl | rfl
  · exact Iff.rfl
  · rw [hw.2]; exact or_comm

theorem World.sharing_eq (hW : W.Tiled) (LA : Line W.order W.elemA xA) (LB : Line W.order W.elemB xB) (n n' : Node)
    (hn : n ∈ W.nodes) (h : n' ∈ W.sharing xA xB n) : W.sharing xA xB n' = W.sharing xA xB n := by
  have hn' := W.sharing_nodes xA xB hW n n' h
  unfold World.sharing at h ⊢
  cases hk : W.kind with
  | sphere =>
    rw [hk] at h
    simp only at h ⊢
    unfold copies at h ⊢
    rw [(Finset.mem_filter.mp h).2]
  | plane =>
    classical
    rw [hk] at h
    simp only at h ⊢
    obtain ⟨p, g, j⟩ := n
    obtain ⟨p', g', j'⟩ := n'
    rw [W.mem_nodes] at hn hn'
    unfold planeCopies at h ⊢
    have := (Finset.mem_filter.mp h).2
    simp only at this
    ext ⟨q, a, b⟩
    simp only [Finset.mem_filter, Finset.mem_product, Finset.mem_Ico]
    refine and_congr_right fun hq => ?_
    rw [place_trans LA g g' a hn.2.1.1 hn.2.1.2 hn'.2.1.1 hn'.2.1.2 hq.2.1.1 hq.2.1.2 this.1,
      place_trans LB j j' b hn.2.2.1 hn.2.2.2 hn'.2.2.1 hn'.2.2.2 hq.2.2.1 hq.2.2.2 this.2]

theorem meanOver_const (s : Finset Node) (hs : s.Nonempty) (f : Node → ℝ) (a : ℝ) (h : ∀ n ∈ s, f n = a) :
    meanOver s f = a := by
  unfold meanOver
  rw [Finset.sum_congr rfl h, Finset.sum_const, nsmul_eq_mul]
  have : (s.card : ℝ) ≠ 0 := by exact_mod_cast (Finset.card_pos.mpr hs).ne'
  field_simp

theorem meanOver_bounds (s : Finset Node) (hs : s.Nonempty) (f : Node → ℝ) (lo hi : ℝ) (h : ∀ n ∈ s, lo ≤ f n ∧ f n ≤ hi) :
    lo ≤ meanOver s f ∧ meanOver s f ≤ hi := by
  unfold meanOver
  have : (0 : ℝ) < s.card := by exact_mod_cast Finset.card_pos.mpr hs
  have h1 := Finset.card_nsmul_le_sum s f lo fun n hn => (h n hn).1
  have h2 := Finset.sum_le_card_nsmul s f hi fun n hn => (h n hn).2
  rw [nsmul_eq_mul] at h1 h2
  rw [le_div_iff₀ this, div_le_iff₀ this]
  constructor <;> linarith

/-- The mean of the patches is the mean over the nodes at the point. -/
theorem World.mean_sharing (hW : W.Tiled) (LA : Line W.order W.elemA xA) (LB : Line W.order W.elemB xB)
    (f : Node → ℝ) (n : Node) (hn : n ∈ W.nodes) : W.mean f n = meanOver (W.sharing xA xB n) f := by
  unfold World.sharing
  cases hk : W.kind with
  | sphere => exact W.mean_sphere hW hk xA LA f n hn
  | plane => exact W.mean_plane hW hk xA xB LA LB f n hn

theorem World.mutual_any (hW : W.Tiled) : ∃ turn, W.Mutual turn := by
  cases hk : W.kind with
  | sphere => exact ⟨_, W.mutual_sphere hW hk⟩
  | plane => exact ⟨_, W.mutual_plane hW hk⟩

theorem World.average_holds (hW : W.Tiled) (LA : Line W.order W.elemA xA) (LB : Line W.order W.elemB xB) (v w : W.Field)
    (m c k : Nat) (hc : c < m) (hk : k < W.levels) (hw : ∀ i, w i c = W.exchange v i c) (f : Node → ℝ) (hf : W.Holds v c k f) :
    W.Holds (W.averageAll m w) c k fun n => meanOver (W.sharing xA xB n) f := by
  obtain ⟨turn, hM⟩ := W.mutual_any hW
  rw [W.holds_iff hW] at hf ⊢
  intro n hn
  rw [W.averageAll_field hW turn hM v w m c k hc hk hw n hn, W.mean_sharing xA xB hW LA LB _ n hn]
  unfold meanOver
  congr 1
  exact Finset.sum_congr rfl fun n' hn' => hf n' (W.sharing_nodes xA xB hW n n' hn')

theorem World.turn_scalar (m : Momenta) (hL : W.Laid m xA xB) (c : Nat) (hc : W.Scalar c) (i : Fin W.count) (v : Arr) :
    W.turn i v c = v c := by
  cases hk : W.kind with
  | sphere =>
    have h2 := hc hk
    rw [hL.sphere hk]
    funext iA iB k
    unfold World.haloTurn
    simp only
    rw [if_neg (by omega), if_neg (by omega)]
  | plane => rw [hL.plane hk]

end Verif.Whole
