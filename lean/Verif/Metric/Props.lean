import Mathlib.Tactic.FieldSimp
import Mathlib.Tactic.Linarith
import Mathlib.Tactic.LinearCombination
import Mathlib.Tactic.Positivity
import Mathlib.Analysis.SpecialFunctions.Trigonometric.Deriv
import Verif.Metric.Lemmas
import Verif.Metric.Spec
import Verif.Sphere.PropsTangent

/-!
# C79: metric terms
-/

namespace Verif.Metric

open Real Verif.Horiz Verif.Sphere

theorem inverse2_of (m n : Fin 2 → Fin 2 → ℝ) (h00 : m 0 0 * n 0 0 + m 0 1 * n 1 0 = 1)
    (h01 : m 0 0 * n 0 1 + m 0 1 * n 1 1 = 0) (h10 : m 1 0 * n 0 0 + m 1 1 * n 1 0 = 0)
    (h11 : m 1 0 * n 0 1 + m 1 1 * n 1 1 = 1) : Inverse2 m n := by
  intro r c
  rw [Fin.sum_univ_two]
  fin_cases r <;> fin_cases c <;> simp [h00, h01, h10, h11]

theorem dot_tangents (p : Int) (hp : IsPanel p) (X Y : ℝ) :
    dot (tangentA p X Y) (tangentA p X Y) = (1 + X * X) * (1 + Y * Y) / ((1 + X * X + Y * Y) * (1 + X * X + Y * Y)) *
      (1 + X * X) ∧
    dot (tangentA p X Y) (tangentB p X Y) = (1 + X * X) * (1 + Y * Y) / ((1 + X * X + Y * Y) * (1 + X * X + Y * Y)) *
      -(X * Y) ∧
    dot (tangentB p X Y) (tangentB p X Y) = (1 + X * X) * (1 + Y * Y) / ((1 + X * X + Y * Y) * (1 + X * X + Y * Y)) *
      (1 + Y * Y) := by
  have hk := delta_pos X Y
  have hs : 0 < √(1 + X * X + Y * Y) := Real.sqrt_pos.2 hk
  have hss : √(1 + X * X + Y * Y) * √(1 + X * X + Y * Y) = 1 + X * X + Y * Y := Real.mul_self_sqrt hk.le
  have h6 : ((1 / √(1 + X * X + Y * Y)) ^ 3) * ((1 / √(1 + X * X + Y * Y)) ^ 3) =
      1 / ((1 + X * X + Y * Y) * (1 + X * X + Y * Y) * (1 + X * X + Y * Y)) := by
    generalize √(1 + X * X + Y * Y) = d at *
    rw [← hss]; field_simp
  have frame : ∀ u v w u' v' w' : ℝ, dot (u • axisA p + v • axisB p + w • centre p)
      (u' • axisA p + v' • axisB p + w' • centre p) = u * u' + v * v' + w * w' := by
    intro u v w u' v' w'
    rcases hp with rfl | rfl | rfl | rfl | rfl | rfl <;> simp [dot, axisA, axisB, centre] <;> ring
  have smul : ∀ (r s : ℝ) (u v : Vec3), dot (r • u) (s • v) = r * s * dot u v := by
    intro r s u v; simp [dot]; ring
  unfold tangentA tangentB
  simp only [smul, frame]
  generalize 1 / √(1 + X * X + Y * Y) = q at *
  have hk' := hk.ne'
  refine ⟨?_, ?_, ?_⟩
  · rw [show (1 + X * X) * q ^ 3 * ((1 + X * X) * q ^ 3) = (1 + X * X) * (1 + X * X) * (q ^ 3 * q ^ 3) by ring, h6]
    field_simp; ring
  · rw [show (1 + X * X) * q ^ 3 * ((1 + Y * Y) * q ^ 3) = (1 + X * X) * (1 + Y * Y) * (q ^ 3 * q ^ 3) by ring, h6]
    field_simp; ring
  · rw [show (1 + Y * Y) * q ^ 3 * ((1 + Y * Y) * q ^ 3) = (1 + Y * Y) * (1 + Y * Y) * (q ^ 3 * q ^ 3) by ring, h6]
    field_simp; ring

theorem sphereFlat_facts (R X Y : ℝ) (hR : 0 < R) :
    0 < (sphereFlat R X Y).jac ∧
    (sphereFlat R X Y).jac * (sphereFlat R X Y).jac = (sphereFlat R X Y).cov 0 0 * (sphereFlat R X Y).cov 1 1 -
      (sphereFlat R X Y).cov 0 1 * (sphereFlat R X Y).cov 1 0 ∧
    Inverse2 (sphereFlat R X Y).con (sphereFlat R X Y).cov := by
  have hk := delta_pos X Y
  have hx : 0 < 1 + X * X := by nlinarith [mul_self_nonneg X]
  have hy : 0 < 1 + Y * Y := by nlinarith [mul_self_nonneg Y]
  have hs : 0 < √(1 + X * X + Y * Y) := Real.sqrt_pos.2 hk
  have hss : √(1 + X * X + Y * Y) * √(1 + X * X + Y * Y) = 1 + X * X + Y * Y := Real.mul_self_sqrt hk.le
  refine ⟨?_, ?_, ?_⟩
  · simp only [sphereFlat]; positivity
  · simp only [sphereFlat, Flat.cov, Matrix.cons_val_zero, Matrix.cons_val_one]
    generalize √(1 + X * X + Y * Y) = d at *
    have e : (1 + X * X) * (1 + Y * Y) / (d * d * d) * (R * R) * ((1 + X * X) * (1 + Y * Y) / (d * d * d) * (R * R)) =
        ((1 + X * X) * (1 + Y * Y) * (R * R)) ^ 2 / ((d * d) * (d * d) * (d * d)) := by field_simp
    rw [e, hss]
    field_simp
    ring
  · refine inverse2_of _ _ ?_ ?_ ?_ ?_ <;>
      simp only [sphereFlat, Flat.con, Flat.cov, Matrix.cons_val_zero, Matrix.cons_val_one] <;>
      field_simp <;> ring

/-- **C79 (cubed sphere).**  At every interior node of a panel of the cubed sphere, with coordinates `(α, β)`, the stored
two-dimensional covariant components are the inner products of the derivatives of the point of the sphere of that
radius along the coordinates, the contravariant components are the inverse matrix and the Jacobian is the positive root
of the determinant. -/
theorem C79_sphere (P : Setup) (F F' : Nat × Nat → Point) (h : sphereGeometry P F = some F') (x y : Nat)
    (hi : Interior P.S x y) (hR : 0 < P.radius) (p : Int) (hp : IsPanel p) (α β : ℝ) (hα : |α| < π / 2)
    (hβ : |β| < π / 2) (hx : P.x x = tan α) (hy : P.y y = tan β) :
    ∃ tA tB : Vec3, HasDerivAt (fun s => P.radius • image p (tan s) (tan β)) tA α ∧
      HasDerivAt (fun s => P.radius • image p (tan α) (tan s)) tB β ∧
      (F' (x, y)).flat.cov 0 0 = dot tA tA ∧ (F' (x, y)).flat.cov 0 1 = dot tA tB ∧
      (F' (x, y)).flat.cov 1 0 = dot tB tA ∧ (F' (x, y)).flat.cov 1 1 = dot tB tB ∧
      Inverse2 (F' (x, y)).flat.con (F' (x, y)).flat.cov ∧ 0 < (F' (x, y)).flat.jac ∧
      (F' (x, y)).flat.jac * (F' (x, y)).flat.jac =
        (F' (x, y)).flat.cov 0 0 * (F' (x, y)).flat.cov 1 1 - (F' (x, y)).flat.cov 0 1 * (F' (x, y)).flat.cov 1 0 := by
  rw [abs_lt] at hα hβ
  have eα := Real.arctan_tan hα.1 hα.2
  have eβ := Real.arctan_tan hβ.1 hβ.2
  obtain ⟨dA, dB, -, -⟩ := C34_tangent p (tan α) (tan β) 0 0
  rw [eα] at dA
  rw [eβ] at dB
  obtain ⟨g1, g2, g3⟩ := dot_tangents p hp (tan α) (tan β)
  obtain ⟨f1, f2, f3⟩ := sphereFlat_facts P.radius (tan α) (tan β) hR
  have e : (F' (x, y)).flat = sphereFlat P.radius (tan α) (tan β) := by
    rw [sphereGeometry_at h hi, ← hx, ← hy]; rfl
  rw [e]
  have smul : ∀ (r s : ℝ) (u v : Vec3), dot (r • u) (s • v) = r * s * dot u v := by
    intro r s u v; simp [dot]; ring
  have comm : ∀ u v : Vec3, dot u v = dot v u := by intro u v; simp [dot]; ring
  refine ⟨P.radius • tangentA p (tan α) (tan β), P.radius • tangentB p (tan α) (tan β), dA.const_smul P.radius,
    dB.const_smul P.radius,
    ?_, ?_, ?_, ?_, f3, f1, f2⟩
  · rw [smul, g1]; simp only [sphereFlat, Flat.cov, Matrix.cons_val_zero, Matrix.cons_val_one]; ring
  · rw [smul, g2]; simp only [sphereFlat, Flat.cov, Matrix.cons_val_zero, Matrix.cons_val_one]; ring
  · rw [smul, comm, g2]; simp only [sphereFlat, Flat.cov, Matrix.cons_val_zero, Matrix.cons_val_one]; ring
  · rw [smul, g3]; simp only [sphereFlat, Flat.cov, Matrix.cons_val_zero, Matrix.cons_val_one]; ring

theorem inverse3_of (m n : Fin 3 → Fin 3 → ℝ)
    (h : ∀ r c, m r 0 * n 0 c + m r 1 * n 1 c + m r 2 * n 2 c = if r = c then 1 else 0) : Inverse3 m n := by
  intro r c
  rw [Fin.sum_univ_three, h]

/-- Terms built on a horizontal metric whose inverse and volume factor are known measure lengths and volumes. -/
theorem measures_of (g : Fin 2 → Fin 2 → ℝ) (c : Fin 2 → Fin 2 → ℝ) (J : ℝ)
    (hc : c 0 1 = c 1 0) (hi : Inverse2 c g) (hJ : J * J = g 0 0 * g 1 1 - g 0 1 * g 1 0) (t : Terms)
    (hx : t.deriv 2 ≠ 0) (hjac : t.jac = t.deriv 2 * J) (ha0 : t.conA 0 = c 0 0) (ha1 : t.conA 1 = c 0 1)
    (ha2 : t.conA 2 = -(c 0 0 * t.deriv 0 + c 0 1 * t.deriv 1) / t.deriv 2) (hb0 : t.conB 0 = c 1 0)
    (hb1 : t.conB 1 = c 1 1) (hb2 : t.conB 2 = -(c 1 0 * t.deriv 0 + c 1 1 * t.deriv 1) / t.deriv 2)
    (hx0 : t.conXi 0 = t.conA 2) (hx1 : t.conXi 1 = t.conB 2)
    (hx2 : t.conXi 2 = (1 - (t.conA 2 * t.deriv 0 + t.conB 2 * t.deriv 1) * t.deriv 2) / (t.deriv 2 * t.deriv 2)) :
    Measures g t := by
  have i00 := hi 0 0
  have i01 := hi 0 1
  have i10 := hi 1 0
  have i11 := hi 1 1
  simp only [Fin.sum_univ_two, Fin.isValue, if_true, zero_ne_one, one_ne_zero, if_false] at i00 i01 i10 i11
  have eA : t.conA 2 * t.deriv 2 = -(c 0 0 * t.deriv 0 + c 0 1 * t.deriv 1) := by rw [ha2]; field_simp
  have eB : t.conB 2 * t.deriv 2 = -(c 1 0 * t.deriv 0 + c 1 1 * t.deriv 1) := by rw [hb2]; field_simp
  have eX : t.conXi 2 * t.deriv 2 * t.deriv 2 = 1 - (t.conA 2 * t.deriv 0 + t.conB 2 * t.deriv 1) * t.deriv 2 := by
    rw [hx2]; field_simp
  clear ha2 hb2 hx2
  constructor
  · refine inverse3_of _ _ (fun r d => ?_)
    fin_cases r <;> fin_cases d <;> simp [Terms.con, lengths, ha0, ha1, hb0, hb1, hx0, hx1]
    · linear_combination i00 + t.deriv 0 * eA
    · linear_combination i01 + t.deriv 1 * eA
    · linear_combination t.deriv 2 * eA
    · linear_combination i10 + t.deriv 0 * eB
    · linear_combination i11 + t.deriv 1 * eB
    · linear_combination t.deriv 2 * eB
    · refine mul_left_cancel₀ hx ?_
      linear_combination t.deriv 0 * eX + g 0 0 * eA + g 1 0 * eB - t.deriv 0 * i00 - t.deriv 1 * i10 +
        (t.deriv 1 * g 0 0 - t.deriv 0 * g 1 0) * (-hc)
    · refine mul_left_cancel₀ hx ?_
      linear_combination t.deriv 1 * eX + g 0 1 * eA + g 1 1 * eB - t.deriv 0 * i01 - t.deriv 1 * i11 +
        (t.deriv 1 * g 0 1 - t.deriv 0 * g 1 1) * (-hc)
    · linear_combination eX
  · rw [hjac]
    simp [det3, lengths]
    linear_combination t.deriv 2 ^ 2 * hJ

/-- The ground height and its slopes at a node: zero for two-dimensional equations on the cubed sphere. -/
noncomputable def ground (P : Setup) (v : Nat → Nat → ℝ) (x y : Nat) : ℝ := if P.twoD then 0 else v x y

/-- The product of weights and widths that belongs to a node. -/
noncomputable def baseArea (P : Setup) (x y : Nat) : ℝ :=
  P.w ((x - P.S.halo) % P.S.order) * P.deltaA * P.w ((y - P.S.halo) % P.S.order) * P.deltaB

theorem sphere_node {P : Setup} {F F' : Nat × Nat → Point} (h : sphereGeometry P F = some F') {x y k : Nat}
    (hi : Interior P.S x y) (hk : k < P.S.levels) : (F' (x, y)).node k =
      sphereLevel P.radius (P.x x) (P.y y) P.ztop (ground P P.topo x y) (ground P P.topoA x y) (ground P P.topoB x y)
        (baseArea P x y * P.wNode k) (P.level k) := by
  rw [sphereGeometry_at h hi]
  unfold sphereValue
  simp only [if_pos hk]
  rfl

theorem sphere_edge {P : Setup} {F F' : Nat × Nat → Point} (h : sphereGeometry P F = some F') {x y k : Nat}
    (hi : Interior P.S x y) (hk : k ≤ P.S.levels) : (F' (x, y)).edge k =
      sphereInterface P.radius (P.x x) (P.y y) P.ztop (ground P P.topo x y) (ground P P.topoA x y)
        (ground P P.topoB x y) (baseArea P x y * P.wEdge k) (P.interface k) := by
  rw [sphereGeometry_at h hi]
  unfold sphereValue
  simp only [if_pos (Nat.lt_succ_of_le hk)]
  rfl

theorem plane_node {P : Setup} {F F' : Nat × Nat → Point} (h : planeGeometry P F = some F') {x y k : Nat}
    (hi : Interior P.S x y) (hk : k < P.S.levels) : (F' (x, y)).node k =
      planeTerms P.ztop (P.topo x y) (P.topoA x y) (P.topoB x y) (baseArea P x y * P.wNode k) (P.level k) := by
  rw [planeGeometry_at h hi]
  unfold planeValue
  simp only [if_pos hk]
  rfl

theorem plane_edge {P : Setup} {F F' : Nat × Nat → Point} (h : planeGeometry P F = some F') {x y k : Nat}
    (hi : Interior P.S x y) (hk : k ≤ P.S.levels) : (F' (x, y)).edge k =
      planeTerms P.ztop (P.topo x y) (P.topoA x y) (P.topoB x y) (baseArea P x y * P.wEdge k) (P.interface k) := by
  rw [planeGeometry_at h hi]
  unfold planeValue
  simp only [if_pos (Nat.lt_succ_of_le hk)]
  rfl

/-- Levels and interfaces of the cubed sphere are computed by the same formulas, up to the order of the factors. -/
theorem sphereInterface_eq (R X Y ztop zs za zb area eta : ℝ) :
    sphereInterface R X Y ztop zs za zb area eta = sphereLevel R X Y ztop zs za zb area eta := by
  have e : (1 + X * X) * (1 + Y * Y) / (√(1 + X * X + Y * Y) * √(1 + X * X + Y * Y) * √(1 + X * X + Y * Y)) *
      ((ztop - zs) * R * R) = (ztop - zs) * (sphereFlat R X Y).jac := by simp only [sphereFlat]; ring
  unfold sphereInterface sphereLevel
  simp only [e]

theorem sphereLevel_measures (R X Y ztop zs za zb area eta : ℝ) (hR : 0 < R) (hz : zs ≠ ztop) :
    Measures (sphereFlat R X Y).cov (sphereLevel R X Y ztop zs za zb area eta) := by
  have hx : 0 < 1 + X * X := by nlinarith [mul_self_nonneg X]
  have hy : 0 < 1 + Y * Y := by nlinarith [mul_self_nonneg Y]
  have hd : ztop - zs ≠ 0 := fun e => hz (by linarith)
  obtain ⟨-, f2, f3⟩ := sphereFlat_facts R X Y hR
  refine measures_of _ (sphereFlat R X Y).con (sphereFlat R X Y).jac ?_ f3 f2 _ ?_ ?_ ?_ ?_ ?_ ?_ ?_ ?_ ?_ ?_ ?_
  all_goals try simp only [sphereLevel, sphereFlat, Flat.con, Matrix.cons_val_zero, Matrix.cons_val_one, Matrix.cons_val]
  · exact hd
  · field_simp
  · field_simp
  · field_simp

theorem planeTerms_measures (ztop zs za zb area eta : ℝ) (hz : ztop + zs * decaySlope eta ≠ 0) :
    Measures planeFlat.cov (planeTerms ztop zs za zb area eta) := by
  have f3 : Inverse2 planeFlat.con planeFlat.cov := by
    refine inverse2_of _ _ ?_ ?_ ?_ ?_ <;> simp [planeFlat, Flat.con, Flat.cov]
  refine measures_of _ planeFlat.con planeFlat.jac ?_ f3 ?_ _ ?_ ?_ ?_ ?_ ?_ ?_ ?_ ?_ ?_ ?_ ?_
  all_goals try simp only [planeTerms, planeFlat, Flat.con, Flat.cov, Matrix.cons_val_zero, Matrix.cons_val_one, Matrix.cons_val]
  · norm_num
  · exact hz
  · ring
  · ring
  · field_simp; ring

/-- **C79 (measures, cubed sphere).**  At every interior node of a patch of the cubed sphere whose ground is not at the
top of the model, for every level and every interface, the nine contravariant components are the inverse of the inner
products of the coordinate directions, and the square of the Jacobian is their determinant. -/
theorem C79_sphere_measures (P : Setup) (F F' : Nat × Nat → Point) (h : sphereGeometry P F = some F') (x y : Nat)
    (hi : Interior P.S x y) (hR : 0 < P.radius) (hz : ground P P.topo x y ≠ P.ztop) :
    (∀ k < P.S.levels, Measures (F' (x, y)).flat.cov ((F' (x, y)).node k)) ∧
    ∀ k ≤ P.S.levels, Measures (F' (x, y)).flat.cov ((F' (x, y)).edge k) := by
  have e : (F' (x, y)).flat = sphereFlat P.radius (P.x x) (P.y y) := by rw [sphereGeometry_at h hi]; rfl
  rw [e]
  refine ⟨fun k hk => ?_, fun k hk => ?_⟩
  · rw [sphere_node h hi hk]; exact sphereLevel_measures _ _ _ _ _ _ _ _ _ hR hz
  · rw [sphere_edge h hi hk, sphereInterface_eq]; exact sphereLevel_measures _ _ _ _ _ _ _ _ _ hR hz

/-- **C79 (measures, Cartesian grid).**  The same on the Cartesian grid, whose horizontal lengths are those of the plane,
at every level and interface at which the stored rate of change of height is not zero. -/
theorem C79_plane_measures (P : Setup) (F F' : Nat × Nat → Point) (h : planeGeometry P F = some F') (x y : Nat)
    (hi : Interior P.S x y) :
    (F' (x, y)).flat.cov = ![![1, 0], ![0, 1]] ∧ (F' (x, y)).flat.con = ![![1, 0], ![0, 1]] ∧ (F' (x, y)).flat.jac = 1 ∧
    (∀ k < P.S.levels, ((F' (x, y)).node k).deriv 2 ≠ 0 → Measures (F' (x, y)).flat.cov ((F' (x, y)).node k)) ∧
    ∀ k ≤ P.S.levels, ((F' (x, y)).edge k).deriv 2 ≠ 0 → Measures (F' (x, y)).flat.cov ((F' (x, y)).edge k) := by
  have e : (F' (x, y)).flat = planeFlat := by rw [planeGeometry_at h hi]; rfl
  rw [e]
  refine ⟨rfl, rfl, rfl, fun k hk hd => ?_, fun k hk hd => ?_⟩
  · rw [plane_node h hi hk] at hd ⊢; exact planeTerms_measures _ _ _ _ _ _ hd
  · rw [plane_edge h hi hk] at hd ⊢; exact planeTerms_measures _ _ _ _ _ _ hd

theorem sphereLevel_slopes (R X Y ztop zs za zb area eta : ℝ) :
    SlopesOf (sphereHeight ztop) zs za zb eta (sphereLevel R X Y ztop zs za zb area eta) := by
  have g : ∀ d : ℝ, ∀ (T : ℝ → ℝ) (s : ℝ), T s = zs → HasDerivAt T d s →
      HasDerivAt (fun s => sphereHeight ztop (T s) eta) ((1 - eta) * d) s := by
    intro d T s _ hT
    refine (hT.add ((hT.const_sub ztop).const_mul eta)).congr_deriv ?_
    ring
  refine ⟨g za, g zb, ?_⟩
  refine (((hasDerivAt_id eta).mul_const (ztop - zs)).const_add zs).congr_deriv ?_
  simp [sphereLevel]

theorem decay_eq (eta : ℝ) : decay eta = (1 - eta) * (cos (π * eta / 2) ^ 6 + eta * sin (π * eta / 2) / 4) := by
  unfold decay
  rw [show (0.5 : ℝ) * π * eta = π * eta / 2 by ring]; ring

theorem planeHeight_eq (ztop zs eta : ℝ) : planeHeight ztop zs eta = ztop * eta + decay eta * zs := by
  rw [decay_eq]; unfold planeHeight; ring

theorem hasDerivAt_decay (eta : ℝ) : HasDerivAt decay (decaySlope eta) eta := by
  have h0 : HasDerivAt (fun x : ℝ => 0.5 * π * x) (0.5 * π) eta := by
    simpa using (hasDerivAt_id eta).const_mul (0.5 * π)
  have hc := h0.cos
  have hs := h0.sin
  have h1 : HasDerivAt (fun x : ℝ => 1 - 1 * x) (-1) eta := by
    simpa using ((hasDerivAt_id eta).const_mul (1 : ℝ)).const_sub 1
  have h2 : HasDerivAt (fun x : ℝ => 0.25 * x) 0.25 eta := by
    simpa using (hasDerivAt_id eta).const_mul (0.25 : ℝ)
  refine (h1.mul ((hc.pow 6).add (h2.mul hs))).congr_deriv ?_
  simp only [Pi.add_apply, Pi.mul_apply, Pi.pow_apply]
  unfold decaySlope
  push_cast
  ring

theorem planeTerms_slopes (ztop zs za zb area eta : ℝ) :
    SlopesOf (planeHeight ztop) zs za zb eta (planeTerms ztop zs za zb area eta) := by
  have e : planeHeight ztop = fun zs eta => ztop * eta + decay eta * zs := by
    funext zs eta; exact planeHeight_eq ztop zs eta
  rw [e]
  have g : ∀ d : ℝ, ∀ (T : ℝ → ℝ) (s : ℝ), T s = zs → HasDerivAt T d s →
      HasDerivAt (fun s => ztop * eta + decay eta * T s) (decay eta * d) s := by
    intro d T s _ hT
    exact (hT.const_mul (decay eta)).const_add _
  refine ⟨g za, g zb, ?_⟩
  refine (((hasDerivAt_id eta).const_mul ztop).add ((hasDerivAt_decay eta).mul_const zs)).congr_deriv ?_
  simp [planeTerms]
  ring

/-- **C79 (slopes).**  On both grids the three stored derivatives of height at every level and interface of every
interior node are the rates of change of the height of the terrain-following surface: along a horizontal coordinate for
any ground with the stored slope there, and in the vertical. -/
theorem C79_slopes (P : Setup) (F F' : Nat × Nat → Point) (x y : Nat) (hi : Interior P.S x y) :
    (sphereGeometry P F = some F' →
      (∀ k < P.S.levels, SlopesOf (sphereHeight P.ztop) (ground P P.topo x y) (ground P P.topoA x y)
        (ground P P.topoB x y) (P.level k) ((F' (x, y)).node k)) ∧
      ∀ k ≤ P.S.levels, SlopesOf (sphereHeight P.ztop) (ground P P.topo x y) (ground P P.topoA x y)
        (ground P P.topoB x y) (P.interface k) ((F' (x, y)).edge k)) ∧
    (planeGeometry P F = some F' →
      (∀ k < P.S.levels, SlopesOf (planeHeight P.ztop) (P.topo x y) (P.topoA x y) (P.topoB x y) (P.level k)
        ((F' (x, y)).node k)) ∧
      ∀ k ≤ P.S.levels, SlopesOf (planeHeight P.ztop) (P.topo x y) (P.topoA x y) (P.topoB x y) (P.interface k)
        ((F' (x, y)).edge k)) := by
  refine ⟨fun h => ⟨fun k hk => ?_, fun k hk => ?_⟩, fun h => ⟨fun k hk => ?_, fun k hk => ?_⟩⟩
  · rw [sphere_node h hi hk]; exact sphereLevel_slopes _ _ _ _ _ _ _ _ _
  · rw [sphere_edge h hi hk, sphereInterface_eq]; exact sphereLevel_slopes _ _ _ _ _ _ _ _ _
  · rw [plane_node h hi hk]; exact planeTerms_slopes _ _ _ _ _ _
  · rw [plane_edge h hi hk]; exact planeTerms_slopes _ _ _ _ _ _

end Verif.Metric
