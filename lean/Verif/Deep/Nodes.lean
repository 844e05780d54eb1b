import Verif.Deep.Columns
import Verif.Nonhydro.ExplicitProps
import Verif.Dss.Props

/-!
# Exchange, summation, horizontal step and viscosity conserve the mass of air of the grid
-/

namespace Verif.Deep

open Verif.Whole (World)
open Verif.Horiz (value)

variable (A : Atmos) {c : Nat} (hk : A.Kept c)

section
variable (hW : A.W.Tiled) (hQ : A.W.Quadrature) (hP : A.Primitive) {a b : ℝ} {density : Nat → Int → Int → ℝ}
  (hM : A.Measured a b density) {node edge sNode sEdge : Nat → ℝ} {gauss lob : List ℝ × List ℝ}
  (hC : A.Columnar node edge sNode sEdge gauss lob)

include hW hM in
/-- Mass over the nodes of the grid. -/
theorem Atmos.mass_nodes (v : A.W.Field) : A.total c v = ∑ k ∈ Finset.range A.W.levels, a * b * A.W.level k *
    ∑ n ∈ A.W.nodes, A.W.cell (density k) n * A.W.field v c k n := by
  have ho : (2 : Int) ≤ A.W.order := by exact_mod_cast hW.order
  unfold Atmos.total
  have e1 : ∀ k ∈ Finset.range A.W.levels,
      a * b * A.W.level k * ∑ n ∈ A.W.nodes, A.W.cell (density k) n * A.W.field v c k n =
      ∑ n, ∑ x ∈ Finset.range (A.W.tile n).M.G.S.elemA, ∑ y ∈ Finset.range (A.W.tile n).M.G.S.elemB,
        ∑ i ∈ Finset.range A.W.order, ∑ j ∈ Finset.range A.W.order,
          (A.W.tile n).M.jacNode (A.W.halo + x * A.W.order + i) (A.W.halo + y * A.W.order + j) k *
            A.W.weight i * (A.W.tile n).M.G.deltaA * A.W.weight j * (A.W.tile n).M.G.deltaB * A.W.level k *
            v n c (A.W.halo + x * A.W.order + i) (A.W.halo + y * A.W.order + j) k := by
    intro k hk
    rw [Finset.mem_range] at hk
    rw [← A.W.sum_tiles hW]
    simp only [Finset.mul_sum]
    refine Finset.sum_congr rfl fun t _ => Finset.sum_congr rfl fun x hx => Finset.sum_congr rfl fun y hy =>
      Finset.sum_congr rfl fun i hi => Finset.sum_congr rfl fun j hj => ?_
    rw [Finset.mem_range] at hx hy hi hj
    have hI := A.W.element_interior hW t x y i j hx hy hi hj
    have rw' : ∀ e x i : Nat, i < A.W.order →
        A.W.rowWeight (((A.W.halo + x * A.W.order + i : Nat) : Int) - A.W.halo + e * A.W.order) = A.W.weight i := by
      intro e x i hi
      unfold World.rowWeight
      have : (((A.W.halo + x * A.W.order + i : Nat) : Int) - A.W.halo + e * A.W.order) = i + A.W.order * (x + e) := by
        push_cast; ring
      rw [this, Int.add_mul_emod_self_left, Int.emod_eq_of_lt (by omega) (by omega)]
      rfl
    rw [A.W.field_own hW v c k t _ _ hI]
    unfold World.cell World.place
    simp only
    rw [hM.jacobian t _ _ k hI hk, rw' _ _ _ hi, rw' _ _ _ hj, (hM.width t).1, (hM.width t).2]
    ring
  rw [Finset.sum_congr rfl e1]
  symm
  rw [Finset.sum_comm]
  refine Finset.sum_congr rfl fun n _ => ?_
  rw [Finset.sum_comm]
  refine Finset.sum_congr rfl fun x _ => ?_
  rw [Finset.sum_comm]

include hk hW hM in
theorem Atmos.average_mass (turn : Int × Int × Int → Bool → Bool) (hT : A.W.Mutual turn)
    (hA : ∀ k, k < A.W.levels → ∀ d n, n ∈ A.W.nodes → A.W.cell (density k) (A.W.op d n) = A.W.cell (density k) n)
    (hB : ∀ k, k < A.W.levels → ∀ n, n ∈ A.W.nodes → ¬ A.W.Triple n →
      A.W.cell (density k) (A.W.diag n) = A.W.cell (density k) n) (v w : A.W.Field) (h5 : A.W.components = 5)
    (hw : ∀ i, w i c = A.W.exchange v i c) : A.total c (A.averageAll w) = A.total c v := by
  rw [A.mass_nodes hW hM, A.mass_nodes hW hM]
  refine Finset.sum_congr rfl fun k hl => ?_
  rw [Finset.mem_range] at hl
  congr 1
  have := Whole.mean_conserved A.W.nodes A.W.Triple A.W.op turn A.W.diag (A.W.cell (density k)) (A.W.field v c k)
    hT.closed hT.back hT.dclosed hT.triple (hA k hl) (hB k hl)
  rw [← this]
  refine Finset.sum_congr rfl fun n hn => ?_
  have e : A.W.field (A.averageAll w) c k n = A.W.field (A.W.averageAll 5 w) c k n := by
    unfold World.field
    split
    · unfold Atmos.averageAll World.averageAll Atmos.top
      rw [h5, hk.1]
      simp
    · rfl
  rw [e, A.W.averageAll_field hW turn hT v w 5 c k (by rcases hk.2 with h | h <;> omega) hl hw n hn]
  rfl

include hk hW hQ hP hM in
theorem Atmos.dss_mass (v : A.W.Field) : A.total c (A.dssState v) = A.total c v := by
  unfold Atmos.dssState
  have hw : ∀ i, (fun i => A.W.turn i (A.W.exchange v i)) i c = A.W.exchange v i c := fun i => hP.turn i _ c (by rcases hk.2 with h | h <;> omega)
  cases hs : A.W.kind with
  | sphere =>
    refine A.average_mass hk hW hM _ (A.W.mutual_sphere hW hs) (fun k hl => ?_) (fun k hl => ?_) v _ hP.five hw
    · exact (A.W.cell_sphere (density k) hW hQ hs ((hM.shared k hl).sphere hs)).1
    · exact (A.W.cell_sphere (density k) hW hQ hs ((hM.shared k hl).sphere hs)).2
  | plane =>
    refine A.average_mass hk hW hM _ (A.W.mutual_plane hW hs) (fun k hl => ?_) (fun k hl => ?_) v _ hP.five hw
    · exact (A.W.cell_plane (density k) hW hQ hs ((hM.shared k hl).plane hs)).1
    · exact fun n hn _ => (A.W.cell_plane (density k) hW hQ hs ((hM.shared k hl).plane hs)).2 n hn

/-- Mass in an element at a level. -/
noncomputable def Atmos.part (c : Nat) (v : A.W.Field) (n : Fin A.W.count) (x y k : Nat) : ℝ :=
  ∑ i ∈ Finset.range A.W.order, ∑ j ∈ Finset.range A.W.order,
    (A.W.tile n).M.jacNode (A.W.halo + x * A.W.order + i) (A.W.halo + y * A.W.order + j) k *
      A.W.weight i * (A.W.tile n).M.G.deltaA * A.W.weight j * (A.W.tile n).M.G.deltaB * A.W.level k *
      v n c (A.W.halo + x * A.W.order + i) (A.W.halo + y * A.W.order + j) k

omit hW hM in
theorem Atmos.mass_parts (v w : A.W.Field)
    (h : ∀ n x y k, x < (A.W.tile n).M.G.S.elemA → y < (A.W.tile n).M.G.S.elemB → k < A.W.levels →
      A.part c v n x y k = A.part c w n x y k) : A.total c v = A.total c w := by
  unfold Atmos.total
  refine Finset.sum_congr rfl fun n _ => Finset.sum_congr rfl fun x hx => Finset.sum_congr rfl fun y hy =>
    Finset.sum_congr rfl fun k hk => ?_
  rw [Finset.mem_range] at hx hy hk
  exact h n x y k hx hy hk

include hk hC hW hQ hM in
theorem Atmos.explicit_mass (dt : ℝ) (x y : A.W.Field × A.W.Field) : A.total c (A.stepExplicit dt x y).1 = A.total c y.1 := by
  refine A.mass_parts _ _ fun n p q k hp hq hl => ?_
  obtain ⟨s1, s2, s3, -⟩ := hW.shape n
  have h5 : 2 ≤ c ∧ c < 5 := by rcases hk.2 with h | h <;> omega
  have link : ∀ (u : Horiz.Data) (v : A.W.Field), (∀ iA iB, u ⟨.state c, iA, iB, k⟩ = v n c iA iB k) →
      A.part c v n p q k = Nonhydro.overElement (A.horizontal n).A A.W.weight A.W.level p q k
        (value (A.horizontal n).A.G.S u (.state c) p q k) := by
    intro u v h
    unfold Atmos.part Nonhydro.overElement
    show _ = ∑ i ∈ Finset.range (A.W.tile n).M.G.S.order, ∑ j ∈ Finset.range (A.W.tile n).M.G.S.order, _
    rw [s1]
    refine Finset.sum_congr rfl fun i hi => Finset.sum_congr rfl fun j hj => ?_
    rw [Finset.mem_range] at hi hj
    unfold value
    rw [h]
    show _ = Nonhydro.volume (A.horizontal n).A A.W.weight A.W.level
      ((A.W.tile n).M.G.S.halo + p * (A.W.tile n).M.G.S.order + i)
      ((A.W.tile n).M.G.S.halo + q * (A.W.tile n).M.G.S.order + j) k *
      v n c ((A.W.tile n).M.G.S.halo + p * (A.W.tile n).M.G.S.order + i)
        ((A.W.tile n).M.G.S.halo + q * (A.W.tile n).M.G.S.order + j) k
    unfold Nonhydro.volume
    show _ = (A.W.tile n).M.jacNode ((A.W.tile n).M.G.S.halo + p * (A.W.tile n).M.G.S.order + i)
      ((A.W.tile n).M.G.S.halo + q * (A.W.tile n).M.G.S.order + j) k *
      A.W.weight (((A.W.tile n).M.G.S.halo + p * (A.W.tile n).M.G.S.order + i - (A.W.tile n).M.G.S.halo) %
        (A.W.tile n).M.G.S.order) * _ *
      A.W.weight (((A.W.tile n).M.G.S.halo + q * (A.W.tile n).M.G.S.order + j - (A.W.tile n).M.G.S.halo) %
        (A.W.tile n).M.G.S.order) * _ * _ * _
    rw [s1, s2, Whole.row_mod _ _ _ _ hi, Whole.row_mod _ _ _ _ hj]
    rfl
  rw [link (A.explicitOn dt n (A.lift x n) (A.lift y n)) _ (fun iA iB => by
      simp [Atmos.stepExplicit, Atmos.lower, hk.1]),
    link (A.lift y n) _ (fun iA iB => by simp [Atmos.lift, hk.1, h5])]
  unfold Atmos.explicitOn
  cases hr : Nonhydro.stepExplicit (A.horizontal n) 0 1 dt (fun m => if m = 0 then A.lift x n else A.lift y n) with
  | exception => rfl
  | undefined => rfl
  | done D =>
    simp only
    have hp' : Horiz.Paired (A.W.tile n).M.G.S.order (A.W.tile n).M.B A.W.weight := by rw [s1]; exact hQ.paired n
    have reg : Nonhydro.Regular (A.horizontal n).A p q k := by
      intro i j hi hj
      have hi' : i < A.W.order := by rw [← s1]; exact hi
      have hj' : j < A.W.order := by rw [← s1]; exact hj
      have hI := A.W.element_interior hW n p q i j hp hq hi' hj'
      unfold Nonhydro.place
      show (A.W.tile n).M.jacNode ((A.W.tile n).M.G.S.halo + p * (A.W.tile n).M.G.S.order + i)
        ((A.W.tile n).M.G.S.halo + q * (A.W.tile n).M.G.S.order + j) k ≠ 0
      rw [s1, s2]
      exact A.jac_ne hW hM n _ _ k hI hl
    have hl' : k < (A.W.tile n).M.G.S.levels := by rw [s3]; exact hl
    rcases hk.2 with rfl | ⟨rfl, -⟩
    · exact Nonhydro.C84_mass (A.horizontal n) 0 1 dt _ D hr A.W.weight hp' A.W.level p q k hp hq hl' rfl reg
    · exact Nonhydro.C84_theta (A.horizontal n) 0 1 dt _ D hr A.W.weight hp' A.W.level p q k hp hq hl' rfl
        hC.lorenz.2.1 reg

include hk hW hQ hP hM in
theorem Atmos.diffuse_mass (dt nuScalar dt' nuDiv nuVort : ℝ) (scale : Bool) (x y : A.W.Field × A.W.Field) :
    A.total c (A.W.diffuse dt nuScalar dt' nuDiv nuVort scale x y).1 = A.total c y.1 := by
  refine A.mass_parts _ _ fun n p q k hp hq hl => ?_
  obtain ⟨s1, s2, s3, -⟩ := hW.shape n
  have h5 : 2 ≤ c ∧ c < 5 := by rcases hk.2 with h | h <;> omega
  have loc : (A.W.tile n).M.located c = .node := by rw [hP.located, hk.1]; rfl
  have link : ∀ (u : Horiz.Data) (v : A.W.Field), (∀ iA iB, u ⟨.state c, iA, iB, k⟩ = v n c iA iB k) →
      A.part c v n p q k = (A.W.tile n).M.G.deltaA * (A.W.tile n).M.G.deltaB * A.W.level k *
        Horiz.inner (A.W.tile n).M A.W.weight (.state c) p q k (fun _ _ => 1)
          (value (A.W.tile n).M.G.S u (.state c) p q k) := by
    intro u v h
    unfold Atmos.part Horiz.inner
    rw [s1, Finset.mul_sum]
    refine Finset.sum_congr rfl fun i hi => ?_
    rw [Finset.mul_sum]
    refine Finset.sum_congr rfl fun j hj => ?_
    unfold value Horiz.nodeWeight Horiz.density
    rw [h]
    simp only [loc, s1, s2]
    rw [if_neg (by decide)]
    ring
  have hp' : Horiz.Paired (A.W.tile n).M.G.S.order (A.W.tile n).M.B A.W.weight := by rw [s1]; exact hQ.paired n
  rw [link (A.W.join y n) _ (fun _ _ => rfl)]
  cases happ : Horiz.applyScalar (A.W.tile n).M (A.W.join x n) dt nuScalar scale (-1) false (A.W.join y n) with
  | none =>
    rw [link (A.W.join y n) _ (fun iA iB => ?_)]
    unfold World.diffuse World.split
    simp only [happ, Option.getD_none]
    rw [Horiz.vector_out _ _ _ _ _ _ _ _ _ (by constructor <;> simp <;> omega)]
  | some r =>
    rw [link r _ (fun iA iB => ?_)]
    · have reg : Horiz.RegularFor (A.W.tile n).M (.state c) p q k := by
        intro i j hi hj
        rw [s1] at hi hj
        have hI := A.W.element_interior hW n p q i j hp hq hi hj
        unfold Horiz.density
        simp only [loc, s1, s2]
        rw [if_neg (by decide)]
        exact A.jac_ne hW hM n _ _ k hI hl
      rw [Horiz.C75_mass (A.W.tile n).M A.W.weight hp' (A.W.join x n) dt nuScalar scale (-1) false (A.W.join y n) r happ
        (.state c) p q k hp hq (.inl ⟨loc, by rw [s3]; exact hl⟩) reg]
    · unfold World.diffuse World.split
      simp only [happ, Option.getD_some]
      rw [Horiz.vector_out _ _ _ _ _ _ _ _ _ (by constructor <;> simp <;> omega)]

include hk hW hQ hP hM in
theorem Atmos.after_mass (dt : ℝ) (x : A.W.Field × A.W.Field) : A.total c (A.afterSubCycle dt x).1 = A.total c x.1 := by
  classical
  unfold Atmos.afterSubCycle
  split_ifs
  · rfl
  · rfl
  · simp only [Atmos.dss]
    rw [A.dss_mass hk hW hQ hP hM, A.diffuse_mass hk hW hQ hP hM]
  · simp only [Atmos.dss]
    rw [A.dss_mass hk hW hQ hP hM, A.diffuse_mass hk hW hQ hP hM]
  · rfl

end

end Verif.Deep
