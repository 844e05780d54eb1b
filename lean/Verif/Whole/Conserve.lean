import Verif.Whole.Summation
import Verif.Horiz.SubCycleProps
import Verif.Horiz.ShallowProps
import Verif.Steps.PropsKeep

/-!
# The dynamics of the whole grid conserve mass
-/

namespace Verif.Whole

open Verif.Horiz (elementMass Var value)

variable (W : World)

theorem World.join_split (D : Fin W.count → Horiz.Data) (i : Fin W.count) : W.join (W.split D) i = D i := by
  funext ⟨v, iA, iB, k⟩
  cases v <;> rfl

theorem row_mod (o h a i : Nat) (hi : i < o) : (h + a * o + i - h) % o = i := by
  rw [show h + a * o + i - h = i + a * o by omega, Nat.add_mul_mod_self_right, Nat.mod_eq_of_lt hi]

theorem World.area_at (n : Fin W.count) (a b k i j : Nat) (hi : i < (W.tile n).M.G.S.order)
    (hj : j < (W.tile n).M.G.S.order) :
    W.area n ((W.tile n).M.G.S.halo + a * (W.tile n).M.G.S.order + i)
      ((W.tile n).M.G.S.halo + b * (W.tile n).M.G.S.order + j) k =
    (W.tile n).M.G.jac ((W.tile n).M.G.S.halo + a * (W.tile n).M.G.S.order + i)
      ((W.tile n).M.G.S.halo + b * (W.tile n).M.G.S.order + j) * W.weight i * (W.tile n).M.G.deltaA * W.weight j *
      (W.tile n).M.G.deltaB * W.level k := by
  unfold World.area Horiz.nodeArea
  rw [row_mod _ _ _ _ hi, row_mod _ _ _ _ hj]

/-- Mass by elements. -/
theorem World.mass_elements (hW : W.Tiled) (c : Nat) (x : W.Field × W.Field) : W.mass c x.1 =
    ∑ n, ∑ a ∈ Finset.range (W.tile n).M.G.S.elemA, ∑ b ∈ Finset.range (W.tile n).M.G.S.elemB,
      ∑ k ∈ Finset.range W.levels, elementMass (W.tile n).M.G.S (W.area n) (W.join x n) (.state c) a b k := by
  unfold World.mass
  refine Finset.sum_congr rfl fun n _ => Finset.sum_congr rfl fun a _ => Finset.sum_congr rfl fun b _ =>
    Finset.sum_congr rfl fun k _ => ?_
  obtain ⟨s1, s2, -⟩ := hW.shape n
  unfold elementMass
  rw [s1]
  refine Finset.sum_congr rfl fun i hi => Finset.sum_congr rfl fun j hj => ?_
  rw [Finset.mem_range] at hi hj
  have := W.area_at n a b k i j (by rw [s1]; exact hi) (by rw [s1]; exact hj)
  rw [s1] at this
  rw [this]
  unfold World.nodeMass value World.join
  simp only [s1, s2]

theorem World.mass_of_elements (hW : W.Tiled) (c : Nat) (x y : W.Field × W.Field)
    (h : ∀ i a b k, a < (W.tile i).M.G.S.elemA → b < (W.tile i).M.G.S.elemB → k < W.levels →
      elementMass (W.tile i).M.G.S (W.area i) (W.join x i) (.state c) a b k =
        elementMass (W.tile i).M.G.S (W.area i) (W.join y i) (.state c) a b k) : W.mass c x.1 = W.mass c y.1 := by
  rw [W.mass_elements hW c x, W.mass_elements hW c y]
  refine Finset.sum_congr rfl fun n _ => Finset.sum_congr rfl fun a ha => Finset.sum_congr rfl fun b hb =>
    Finset.sum_congr rfl fun k hk => ?_
  rw [Finset.mem_range] at ha hb hk
  exact h n a b k ha hb hk

theorem elementMass_congr (S : Horiz.Shape) (area : Nat → Nat → Nat → ℝ) (u w : Horiz.Data) (v : Var) (a b k : Nat)
    (h : ∀ x : Horiz.Cell, x.v = v → u x = w x) : elementMass S area u v a b k = elementMass S area w v a b k := by
  unfold elementMass value
  refine Finset.sum_congr rfl fun i _ => Finset.sum_congr rfl fun j _ => ?_
  rw [h ⟨v, _, _, k⟩ rfl]

/-- Nodes of elements are nodes of the patch. -/
theorem World.element_interior (hW : W.Tiled) (n : Fin W.count) (a b i j : Nat) (ha : a < (W.tile n).M.G.S.elemA)
    (hb : b < (W.tile n).M.G.S.elemB) (hi : i < W.order) (hj : j < W.order) :
    Horiz.Interior (W.tile n).M.G.S (W.halo + a * W.order + i) (W.halo + b * W.order + j) := by
  obtain ⟨s1, s2, -⟩ := hW.shape n
  have row : ∀ m x i : Nat, x < m → i < W.order → W.halo + x * W.order + i < W.halo + m * W.order := by
    intro m x i hx hi
    have : (x + 1) * W.order ≤ m * W.order := Nat.mul_le_mul_right _ hx
    rw [Nat.succ_mul] at this
    omega
  unfold Horiz.Interior
  rw [s1, s2]
  have r1 := row _ a i ha hi
  have r2 := row _ b j hb hj
  omega

theorem World.regular (hW : W.Tiled) (p q : ℝ) (density : Int → Int → ℝ) (hD : W.Measured p q density)
    (n : Fin W.count) (iA iB : Nat) (hI : Horiz.Interior (W.tile n).M.G.S iA iB) : (W.tile n).M.G.jac iA iB ≠ 0 := by
  rw [hD.jacobian n iA iB hI]
  have h := W.contains_node hW n _ _ _ (W.place_in hW n iA iB hI)
  rw [W.mem_nodes] at h
  exact hD.regular _ _ h.2.1.1 h.2.1.2 h.2.2.1 h.2.2.2

section
variable (hW : W.Tiled) (hS : W.ShallowWater) (hQ : W.Quadrature) (p q : ℝ) (density : Int → Int → ℝ)
  (hD : W.Measured p q density)

include hW hQ hD in
theorem World.explicit_mass (dt : ℝ) (x y : W.Field × W.Field) : W.mass 2 (W.stepExplicit dt x y).1 = W.mass 2 y.1 := by
  refine W.mass_of_elements hW 2 _ _ (fun i a b k ha hb hk => ?_)
  obtain ⟨s1, s2, s3, -⟩ := hW.shape i
  have reg : Horiz.Regular (W.tile i).M.G a b := by
    intro m n hm hn
    rw [s1, s2]
    rw [s1] at hm hn
    exact W.regular hW p q density hD i _ _ (W.element_interior hW i a b m n ha hb hm hn)
  unfold World.stepExplicit
  rw [W.join_split]
  unfold World.explicitOn
  simp only
  rw [elementMass_congr _ _ _ _ _ a b k (fun z hz => Horiz.filter_state _ _ _ z 2 hz)]
  have hp : Horiz.Paired (W.tile i).M.G.S.order (W.tile i).M.B W.weight := by rw [s1]; exact hQ.paired i
  have mass := Horiz.C74_mass (W.tile i).M.G (W.tile i).M.B W.weight hp W.level (W.join x i) dt (W.join y i) a b k ha hb
    (by rw [s3]; exact hk) reg
  rw [World.area]
  split_ifs
  · rw [elementMass_congr _ _ _ _ _ a b k (fun z hz => Horiz.vector_out _ _ _ _ _ _ _ _ z (by rw [hz]; simp)),
      elementMass_congr _ _ _ _ _ a b k (fun z hz => Horiz.vector_out _ _ _ _ _ _ _ _ z (by rw [hz]; simp))]
    exact mass
  · exact mass

include hW hS hQ hD in
theorem World.diffuse_mass (dt nuScalar dt' nuDiv nuVort : ℝ) (scale : Bool) (c : Nat) (hc : 2 ≤ c)
    (x y : W.Field × W.Field) : W.mass c (W.diffuse dt nuScalar dt' nuDiv nuVort scale x y).1 = W.mass c y.1 := by
  refine W.mass_of_elements hW c _ _ (fun i a b k ha hb hk => ?_)
  obtain ⟨s1, s2, s3, -⟩ := hW.shape i
  unfold World.diffuse
  rw [W.join_split]
  simp only
  rw [elementMass_congr _ _ _ _ _ a b k (fun z hz => Horiz.vector_out _ _ _ _ _ _ _ _ z (by
    rw [hz]; constructor <;> simp <;> omega))]
  have hp : Horiz.Paired (W.tile i).M.G.S.order (W.tile i).M.B W.weight := by rw [s1]; exact hQ.paired i
  cases happ : Horiz.applyScalar (W.tile i).M (W.join x i) dt nuScalar scale (-1) false (W.join y i) with
  | none => rfl
  | some r =>
    obtain ⟨f, f0, fj⟩ := hD.levels i
    have den : ∀ m n, m < (W.tile i).M.G.S.order → n < (W.tile i).M.G.S.order →
        Horiz.density (W.tile i).M (.state c) ((W.tile i).M.G.S.halo + a * (W.tile i).M.G.S.order + m)
          ((W.tile i).M.G.S.halo + b * (W.tile i).M.G.S.order + n) k =
        (W.tile i).M.G.jac ((W.tile i).M.G.S.halo + a * (W.tile i).M.G.S.order + m)
          ((W.tile i).M.G.S.halo + b * (W.tile i).M.G.S.order + n) * f k ∧
        (W.tile i).M.G.jac ((W.tile i).M.G.S.halo + a * (W.tile i).M.G.S.order + m)
          ((W.tile i).M.G.S.halo + b * (W.tile i).M.G.S.order + n) ≠ 0 := by
      intro m n hm hn
      rw [s1] at hm hn
      have hI := W.element_interior hW i a b m n ha hb hm hn
      unfold Horiz.density
      simp only [hS.nodes i c, s1, s2]
      rw [if_neg (by decide), fj _ _ k hI hk]
      exact ⟨rfl, W.regular hW p q density hD i _ _ hI⟩
    have reg : Horiz.RegularFor (W.tile i).M (.state c) a b k := by
      intro m n hm hn
      rw [(den m n hm hn).1]
      exact mul_ne_zero (den m n hm hn).2 (f0 k hk)
    have mass := Horiz.C75_mass (W.tile i).M W.weight hp (W.join x i) dt nuScalar scale (-1) false (W.join y i) r happ
      (.state c) a b k ha hb (.inl ⟨hS.nodes i c, by rw [s3]; exact hk⟩) reg
    have link : ∀ u : Horiz.Data, elementMass (W.tile i).M.G.S (W.area i) u (.state c) a b k =
        (W.tile i).M.G.deltaA * (W.tile i).M.G.deltaB * W.level k / f k *
          Horiz.inner (W.tile i).M W.weight (.state c) a b k (fun _ _ => 1)
            (value (W.tile i).M.G.S u (.state c) a b k) := by
      intro u
      unfold elementMass Horiz.inner
      rw [Finset.mul_sum]
      refine Finset.sum_congr rfl fun m hm => ?_
      rw [Finset.mul_sum]
      refine Finset.sum_congr rfl fun n hn => ?_
      rw [Finset.mem_range] at hm hn
      unfold Horiz.nodeWeight
      rw [(den m n hm hn).1, W.area_at i a b k m n hm hn]
      have := f0 k hk
      field_simp
    simp only [Option.getD_some]
    rw [link, link, mass]

end

/-- The mass as a linear function of state and tracers. -/
noncomputable def World.massOf (c : Nat) : W.Field × W.Field →ₗ[ℝ] ℝ where
  toFun x := W.mass c x.1
  map_add' x y := by
    simp only [World.mass, World.nodeMass, Prod.fst_add, Pi.add_apply, mul_add, Finset.sum_add_distrib]
  map_smul' r x := by
    simp only [World.mass, World.nodeMass, Prod.smul_fst, Pi.smul_apply, smul_eq_mul, RingHom.id_apply, Finset.mul_sum]
    refine Finset.sum_congr rfl fun _ _ => Finset.sum_congr rfl fun _ _ => Finset.sum_congr rfl fun _ _ =>
      Finset.sum_congr rfl fun _ _ => Finset.sum_congr rfl fun _ _ => Finset.sum_congr rfl fun _ _ => ?_
    ring

section
variable (hW : W.Tiled) (hS : W.ShallowWater) (hQ : W.Quadrature) (p q : ℝ) (density : Int → Int → ℝ)
  (hD : W.Measured p q density) (hE : W.Shared density)

include hW hQ hD hE in
theorem World.average_mass (v w : W.Field) (m c : Nat) (hc : c < m) (hw : ∀ i, w i c = W.exchange v i c) :
    W.mass c (W.averageAll m w) = W.mass c v := by
  cases hk : W.kind with
  | sphere =>
    obtain ⟨h1, h2⟩ := W.cell_sphere density hW hQ hk (hE.sphere hk)
    exact W.averageAll_mass hW _ (W.mutual_sphere hW hk) p q density hD h1 h2 v w m c hc hw
  | plane =>
    obtain ⟨h1, h2⟩ := W.cell_plane density hW hQ hk (hE.plane hk)
    exact W.averageAll_mass hW _ (W.mutual_plane hW hk) p q density hD h1 (fun n hn _ => h2 n hn) v w m c hc hw

include hW hS hQ hD hE in
theorem World.dss_mass (c : Nat) (h2 : 2 ≤ c) (hc : c < W.components) (v : W.Field) :
    W.mass c (W.dssState v) = W.mass c v :=
  W.average_mass hW hQ p q density hD hE v _ W.components c hc (fun i => hS.turn i _ c h2)

include hW hS hQ hD hE in
theorem World.after_mass (dt : ℝ) (c : Nat) (h2 : 2 ≤ c) (hc : c < W.components) (x : W.Field × W.Field) :
    W.mass c (W.afterSubCycle dt x).1 = W.mass c x.1 := by
  unfold World.afterSubCycle
  split_ifs
  · rfl
  · rfl
  · simp only [World.dss]
    rw [W.dss_mass hW hS hQ p q density hD hE c h2 hc, W.diffuse_mass hW hS hQ p q density hD _ _ _ _ _ _ c h2]
  · simp only [World.dss]
    rw [W.dss_mass hW hS hQ p q density hD hE c h2 hc, W.diffuse_mass hW hS hQ p q density hD _ _ _ _ _ _ c h2]
  · rfl

include hW hS hQ hD hE in
theorem World.conserves : Steps.Conserves W.dyn (W.massOf 2) := by
  have h3 := hS.three
  constructor
  · intro c x y
    exact W.explicit_mass hW hQ p q density hD c x y
  · intro c x y; rfl
  · intro c x y; rfl
  · intro c x y; rfl
  · intro c x y; rfl
  · intro x
    exact W.dss_mass hW hS hQ p q density hD hE 2 le_rfl (by omega) x.1
  · intro x; rfl
  · intro c x
    exact W.after_mass hW hS hQ p q density hD hE c 2 le_rfl (by omega) x

end

end Verif.Whole
