import Verif.Thermo.DiagnosticsLemmas

/-!
# C86: diagnostics
-/

namespace Verif.Thermo

open Verif.Horiz Verif.Nonhydro

section

variable (calls : List (Quantity × ℝ)) (hg : Gas calls) (G : Gauge) (hG : G.phys = after calls)

include hg hG

theorem pressure_ideal (x : ℝ) (hx : 0 < x) :
    pressureFromRhoTheta G.phys x = idealPressure (latest calls .r) (latest calls .cp) (latest calls .p0) x := by
  rw [hG, (C85_state calls hg x hx).1]
  rfl

/-- **C86 (pressure).**  The pressure computed at every level of every column of the interior is that of the ideal gas
with the present constants, nothing else is written, and the call is refused exactly if the equation set has fewer than
five variables.  Density times potential temperature is that on levels. -/
theorem C86_pressure_partial (u : Data) (p : Field) :
    (computePressure G u p = none ↔ G.components < 5) ∧
    ∀ p', computePressure G u p = some p' → ∀ i j k,
      (Interior G.S i j → k < G.S.levels → 0 < u ⟨.state 2, i, j, k⟩ →
        p' (i, j, k) = idealPressure (latest calls .r) (latest calls .cp) (latest calls .p0) (u ⟨.state 2, i, j, k⟩)) ∧
      (¬ (Interior G.S i j ∧ k < G.S.levels) → p' (i, j, k) = p (i, j, k)) := by
  unfold computePressure
  by_cases hc : G.components < 5
  · simp [hc]
  · rw [if_neg hc]
    refine ⟨by simp [hc], fun p' h i j k => ?_⟩
    simp only [Option.some.injEq] at h
    subst h
    rw [nodes_fill]
    refine ⟨fun hI hk hx => ?_, fun h => if_neg h⟩
    rw [if_pos ⟨hI, hk⟩, pressure_ideal calls hg G hG _ hx]

/-- **C86 (temperature).**  The temperature computed at every level of every column of the interior is potential
temperature times the pressure ratio to the power `r / cp`, and pressure is density times gas constant times temperature;
density and density times potential temperature are interpolated from interfaces if they live there.  No variable changes
where it lives.  The call is refused exactly if the equation set has fewer than five variables or temperature is asked
for on interfaces. -/
theorem C86_temperature (onLevels : Bool) (u : Data) (t : Field) :
    (computeTemperature G onLevels u t = none ↔ G.components < 5 ∨ onLevels = false) ∧
    ∀ u' t', computeTemperature G onLevels u t = some (u', t') → ∀ i j k,
      (Interior G.S i j → k < G.S.levels → 0 < heat G u i j k → density G u i j k ≠ 0 →
        t' (i, j, k) = idealTemperature (latest calls .r) (latest calls .cp) (latest calls .p0)
          (heat G u i j k / density G u i j k)
          (idealPressure (latest calls .r) (latest calls .cp) (latest calls .p0) (heat G u i j k)) ∧
        density G u i j k * latest calls .r * t' (i, j, k) =
          idealPressure (latest calls .r) (latest calls .cp) (latest calls .p0) (heat G u i j k)) ∧
      (¬ (Interior G.S i j ∧ k < G.S.levels) → t' (i, j, k) = t (i, j, k)) ∧
      ∀ v, (v = .state 2 → G.pOnEdge = false) → (v = .state 4 → G.rOnEdge = false) →
        u' ⟨v, i, j, k⟩ = u ⟨v, i, j, k⟩ := by
  unfold computeTemperature
  by_cases hc : G.components < 5
  · simp [hc]
  · rw [if_neg hc]
    cases onLevels with
    | false => simp
    | true =>
      refine ⟨by simp [hc], fun u' t' h i j k => ?_⟩
      simp only [if_true, Option.some.injEq, Prod.mk.injEq] at h
      obtain ⟨rfl, rfl⟩ := h
      refine ⟨fun hI hk hx hρ => ?_, fun h => ?_, fun v h2 h4 => lower_other G u _ h2 h4⟩
      · have er : G.phys.r = latest calls .r := by rw [hG]; exact C85_values calls .r
        have key := (ideal _ _ _ _ _ hg.r hg.cp hg.p0 hρ hx).1
        rw [nodes_fill, if_pos ⟨hI, hk⟩, (lower_at G u i j k hI hk).1, (lower_at G u i j k hI hk).2,
          pressure_ideal calls hg G hG _ hx, er]
        refine ⟨key, ?_⟩
        have := hg.r
        rw [mul_div_cancel₀ _ (mul_ne_zero hρ this.ne')]
      · rw [nodes_fill, if_neg h]

end

/-- **C86 (surface pressure).**  The surface pressure of every column of the interior is the weight of the column, nothing
else is written, and the call is refused exactly if the equation set has fewer than five variables. -/
theorem C86_surface (G : Gauge) (u : Data) (p : Nat × Nat → ℝ) :
    (computeSurfacePressure G u p = none ↔ G.components < 5) ∧
    ∀ p', computeSurfacePressure G u p = some p' → ∀ i j,
      (Interior G.S i j → p' (i, j) = G.phys.g * ∑ k ∈ Finset.range G.S.levels,
        u ⟨.state 4, i, j, k⟩ * (G.zInterface i j (k + 1) - G.zInterface i j k)) ∧
      (¬ Interior G.S i j → p' (i, j) = p (i, j)) := by
  unfold computeSurfacePressure
  by_cases hc : G.components < 5
  · simp [hc]
  · rw [if_neg hc]
    refine ⟨by simp [hc], fun p' h i j => ?_⟩
    simp only [Option.some.injEq] at h
    subst h
    have hl : ∀ (i j n : Nat) (p : Nat × Nat → ℝ), loop n (fun k p => put p (i, j) (p (i, j) +
        G.phys.g * u ⟨.state 4, i, j, k⟩ * (G.zInterface i j (k + 1) - G.zInterface i j k))) p =
        put p (i, j) (p (i, j) + ∑ k ∈ Finset.range n,
          G.phys.g * u ⟨.state 4, i, j, k⟩ * (G.zInterface i j (k + 1) - G.zInterface i j k)) := by
      intro i j n p
      induction n with
      | zero =>
        funext x
        by_cases hx : x = (i, j)
        · subst hx
          simp [loop_zero, put]
        · simp [loop_zero, put, hx]
      | succ n ih =>
        rw [loop_succ, ih, Finset.sum_range_succ]
        funext x
        by_cases hx : x = (i, j)
        · subst hx
          simp only [put, if_true]
          ring
        · simp [put, hx]
    have ht : ∀ i j, Touches (fun p : Nat × Nat → ℝ => loop G.S.levels (fun k p => put p (i, j) (p (i, j) +
        G.phys.g * u ⟨.state 4, i, j, k⟩ * (G.zInterface i j (k + 1) - G.zInterface i j k))) (put p (i, j) 0))
        (fun x => x = (i, j)) := by
      intro i j
      simp only [hl]
      constructor
      · intro s x hx
        simp [put, hx]
      · rintro s s' he x rfl
        simp [put]
    have hp := columns_pass G.S _ _ ht (fun i j i' j' x a b => by rw [a] at b; simpa using b) p
    constructor
    · intro hI
      rw [hp.2 i j hI _ rfl]
      show (loop _ _ _ : Nat × Nat → ℝ) _ = _
      rw [hl, Finset.mul_sum]
      simp only [put, if_true, zero_add]
      exact Finset.sum_congr rfl (fun k _ => by ring)
    · intro hI
      refine hp.1 _ (fun i' j' hI' e => ?_)
      simp only [Prod.mk.injEq] at e
      rw [e.1, e.2] at hI
      exact hI hI'

/-- **C86 (hydrostatic columns).**  If pressures at interfaces are in hydrostatic balance with the density, the surface
pressure is the difference of pressure between bottom and top. -/
theorem C86_hydrostatic (G : Gauge) (u : Data) (p p' : Nat × Nat → ℝ) (h : computeSurfacePressure G u p = some p')
    (i j : Nat) (hI : Interior G.S i j) (q : Nat → ℝ) (hq : ∀ k, k < G.S.levels → q k - q (k + 1) =
      G.phys.g * u ⟨.state 4, i, j, k⟩ * (G.zInterface i j (k + 1) - G.zInterface i j k)) :
    p' (i, j) = q 0 - q G.S.levels := by
  rw [((C86_surface G u p).2 p' h i j).1 hI, Finset.mul_sum, ← Finset.sum_range_sub']
  refine Finset.sum_congr rfl (fun k hk => ?_)
  rw [hq k (Finset.mem_range.1 hk), mul_assoc]

/-- **C86 (instances).**  The three sums are refused for an index that is not that of a data instance, and the sum of
vertical momentum also for shallow water. -/
theorem C86_refused (G : Gauge) (vort : Field) (D : Nat → Data) (n : Nat) (index : Int) :
    (computeTotalEnergy G D n index = none ↔ ¬ (0 ≤ index ∧ index < n)) ∧
    (computeTotalPotentialEnstrophy G vort D n index = none ↔ ¬ (0 ≤ index ∧ index < n)) ∧
    (computeTotalVerticalMomentum G D n index = none ↔ ¬ (0 ≤ index ∧ index < n) ∨ G.shallow = true) := by
  unfold computeTotalEnergy computeTotalPotentialEnstrophy computeTotalVerticalMomentum withInstance
  by_cases h : index < 0 ∨ (n : Int) ≤ index
  · have : ¬ (0 ≤ index ∧ index < n) := by omega
    simp only [if_pos h, this, not_false_eq_true, true_or, and_self]
  · have : 0 ≤ index ∧ index < n := by omega
    simp only [if_neg h]
    refine ⟨by simp [this], by simp [this], ?_⟩
    cases G.shallow <;> simp [this]

section

variable (calls : List (Quantity × ℝ)) (hg : Gas calls) (G : Gauge) (hG : G.phys = after calls)

include hg hG

theorem internal_ideal (ρ x : ℝ) (hρ : ρ ≠ 0) (hx : 0 < x) :
    pressureFromRhoTheta G.phys x / (G.phys.gamma - 1) = ρ * (latest calls .cp - latest calls .r) *
      idealTemperature (latest calls .r) (latest calls .cp) (latest calls .p0) (x / ρ)
        (idealPressure (latest calls .r) (latest calls .cp) (latest calls .p0) x) := by
  rw [pressure_ideal calls hg G hG x hx, hG, (C85_derived calls).2.1, (ideal _ _ _ _ _ hg.r hg.cp hg.p0 hρ hx).2]

/-- **C86 (energy).**  With vertical velocity on levels the total energy is the sum over nodes of volume times kinetic
energy, internal energy `ρ cv T` and potential energy. -/
theorem C86_energy (hs : G.shallow = false) (hw : G.wOnEdge = false) (D : Nat → Data) (n m : Nat) (hm : m < n)
    (hp : ∀ i j k, Interior G.S i j → k < G.S.levels → 0 < D m ⟨.state 2, i, j, k⟩ ∧ 0 < D m ⟨.state 4, i, j, k⟩) :
    computeTotalEnergy G D n m = some (total G.S G.S.levels (fun i j k => G.area i j k *
      (1 / 2 * D m ⟨.state 4, i, j, k⟩ * square 3 (G.metric i j k) (wind (D m) i j k) +
        D m ⟨.state 4, i, j, k⟩ * (latest calls .cp - latest calls .r) *
          idealTemperature (latest calls .r) (latest calls .cp) (latest calls .p0)
            (D m ⟨.state 2, i, j, k⟩ / D m ⟨.state 4, i, j, k⟩)
            (idealPressure (latest calls .r) (latest calls .cp) (latest calls .p0) (D m ⟨.state 2, i, j, k⟩)) +
        latest calls .g * D m ⟨.state 4, i, j, k⟩ * G.zLevel i j k))) := by
  have eg : G.phys.g = latest calls .g := by rw [hG]; exact C85_values calls .g
  unfold computeTotalEnergy withInstance
  rw [if_neg (by omega)]
  simp only [Int.toNat_natCast]
  congr 1
  unfold energyOf
  rw [hs, if_neg (by simp), if_pos hw, nodes_add, zero_add]
  unfold total
  refine Finset.sum_congr rfl (fun i hi => Finset.sum_congr rfl (fun j hj => Finset.sum_congr rfl (fun k hk => ?_)))
  rw [Finset.mem_range] at hi hj hk
  obtain ⟨h1, h2⟩ := hp (G.S.halo + i) (G.S.halo + j) k (by unfold Interior; omega) hk
  dsimp only
  congr 1
  unfold levelPoint
  rw [internal_ideal calls hg G hG _ _ h2.ne' h1, eg]
  congr 2
  unfold square levelDot gaugeUa gaugeUb gaugeUx Gauge.metric wind
  simp only [Finset.sum_range_succ, Finset.sum_range_zero]
  norm_num
  exact Or.inl (by ring)

/-- **C86 (energy, vertical velocity on interfaces).**  The total is the sum over levels of volume times kinetic energy
without the square of vertical velocity, internal energy and potential energy, and the sum over interfaces of volume times
the square of vertical velocity.  What is missing to the property: vertical velocity on levels and density on interfaces
are what the arrays hold, whether or not they belong to the state, see `C86_false_interfaces`. -/
theorem C86_interfaces_partial (hs : G.shallow = false) (hw : G.wOnEdge = true) (D : Nat → Data) (n m : Nat)
    (hm : m < n)
    (hp : ∀ i j k, Interior G.S i j → k < G.S.levels → 0 < D m ⟨.state 2, i, j, k⟩ ∧ 0 < D m ⟨.state 4, i, j, k⟩) :
    computeTotalEnergy G D n m = some (total G.S G.S.levels (fun i j k => G.area i j k *
      (1 / 2 * D m ⟨.state 4, i, j, k⟩ * (square 3 (G.metric i j k) (wind (D m) i j k) -
          G.conXi i j k 2 * D m ⟨.state 3, i, j, k⟩ ^ 2) +
        D m ⟨.state 4, i, j, k⟩ * (latest calls .cp - latest calls .r) *
          idealTemperature (latest calls .r) (latest calls .cp) (latest calls .p0)
            (D m ⟨.state 2, i, j, k⟩ / D m ⟨.state 4, i, j, k⟩)
            (idealPressure (latest calls .r) (latest calls .cp) (latest calls .p0) (D m ⟨.state 2, i, j, k⟩)) +
        latest calls .g * D m ⟨.state 4, i, j, k⟩ * G.zLevel i j k)) +
      total G.S (G.S.levels + 1) (fun i j k => G.areaEdge i j k *
        (1 / 2 * D m ⟨edge 4, i, j, k⟩ * (G.conXiEdge i j k 2 * D m ⟨edge 3, i, j, k⟩ ^ 2)))) := by
  have eg : G.phys.g = latest calls .g := by rw [hG]; exact C85_values calls .g
  unfold computeTotalEnergy withInstance
  rw [if_neg (by omega)]
  simp only [Int.toNat_natCast]
  congr 1
  unfold energyOf
  rw [hs, if_neg (by simp), if_neg (by simp [hw]), nodes_add, nodes_add, zero_add]
  congr 1
  · unfold total
    refine Finset.sum_congr rfl (fun i hi => Finset.sum_congr rfl (fun j hj => Finset.sum_congr rfl (fun k hk => ?_)))
    rw [Finset.mem_range] at hi hj hk
    obtain ⟨h1, h2⟩ := hp (G.S.halo + i) (G.S.halo + j) k (by unfold Interior; omega) hk
    dsimp only
    congr 1
    unfold levelPoint
    rw [internal_ideal calls hg G hG _ _ h2.ne' h1, eg]
    congr 2
    unfold square crossDot gaugeUa gaugeUb Gauge.metric wind
    simp only [Finset.sum_range_succ, Finset.sum_range_zero]
    norm_num
    exact Or.inl (by ring)
  · unfold total interfacePoint
    refine Finset.sum_congr rfl (fun i _ => Finset.sum_congr rfl (fun j _ => Finset.sum_congr rfl (fun k _ => ?_)))
    ring

end

/-- **C86 (shallow water energy).**  Where the metric of the surface is its own inverse at every node, the total energy is
the sum of area times kinetic and potential energy.  What is missing: any other metric, see `C86_false_shallow`. -/
theorem C86_shallow_partial (G : Gauge) (hs : G.shallow = true)
    (hm2 : ∀ i j, Interior G.S i j → G.metric2 i j 0 1 = G.metric2 i j 1 0 ∧
      G.jac2 i j ^ 2 * G.metric2 i j 1 1 = G.metric2 i j 0 0 ∧ -(G.jac2 i j ^ 2 * G.metric2 i j 0 1) = G.metric2 i j 0 1 ∧
      G.jac2 i j ^ 2 * G.metric2 i j 0 0 = G.metric2 i j 1 1) (D : Nat → Data) (n m : Nat) (hm : m < n) :
    computeTotalEnergy G D n m = some (total G.S G.S.levels (fun i j k => G.area i j k *
      (1 / 2 * (D m ⟨.state 2, i, j, k⟩ - G.topo i j) * square 2 (G.metric2 i j) (wind (D m) i j k) +
        1 / 2 * G.phys.g * (D m ⟨.state 2, i, j, k⟩ ^ 2 - G.topo i j ^ 2)))) := by
  unfold computeTotalEnergy withInstance
  rw [if_neg (by omega)]
  simp only [Int.toNat_natCast]
  congr 1
  unfold energyOf
  rw [hs, if_pos rfl, nodes_add, zero_add]
  unfold total
  refine Finset.sum_congr rfl (fun i hi => Finset.sum_congr rfl (fun j hj => Finset.sum_congr rfl (fun k hk => ?_)))
  rw [Finset.mem_range] at hi hj hk
  obtain ⟨h0, h1, h2, h3⟩ := hm2 (G.S.halo + i) (G.S.halo + j) (by unfold Interior; omega)
  dsimp only
  congr 1
  unfold shallowPoint
  have e : shallowDot G (D m) (G.S.halo + i) (G.S.halo + j) k =
      square 2 (G.metric2 (G.S.halo + i) (G.S.halo + j)) (wind (D m) (G.S.halo + i) (G.S.halo + j) k) := by
    unfold square shallowDot wind
    simp only [Finset.sum_range_succ, Finset.sum_range_zero]
    rw [← h0]
    norm_num
    unfold Gauge.metric2 at h0 h1 h2 h3 ⊢
    norm_num at h0 h1 h2 h3 ⊢
    linear_combination D m ⟨.state 0, G.S.halo + i, G.S.halo + j, k⟩ ^ 2 * h1 +
      2 * D m ⟨.state 0, G.S.halo + i, G.S.halo + j, k⟩ * D m ⟨.state 1, G.S.halo + i, G.S.halo + j, k⟩ * h2 +
      D m ⟨.state 1, G.S.halo + i, G.S.halo + j, k⟩ ^ 2 * h3
  rw [e]
  ring

/-- **C86 (potential enstrophy).**  Of shallow water: the sum of area times half the squared absolute vorticity over the
depth, `vort` being the vorticity array and the planetary part that of a sphere which is not inclined. -/
theorem C86_enstrophy (G : Gauge) (vort : Field) (hs : G.shallow = true) (D : Nat → Data) (n m : Nat) (hm : m < n) :
    computeTotalPotentialEnstrophy G vort D n m = some (total G.S G.S.levels (fun i j k => G.area i j k *
      (1 / 2 * (vort (i, j, k) + 2 * G.phys.omega * Real.sin (G.lat i j)) ^ 2 /
        (D m ⟨.state 2, i, j, k⟩ - G.topo i j)))) := by
  unfold computeTotalPotentialEnstrophy withInstance
  rw [if_neg (by omega)]
  simp only [Int.toNat_natCast]
  rw [if_pos hs, nodes_add, zero_add]
  congr 2
  funext i j k
  ring

/-- **C86 (vertical momentum).**  The sum of volume times density times vertical velocity as the arrays on levels hold
them. -/
theorem C86_momentum (G : Gauge) (hs : G.shallow = false) (D : Nat → Data) (n m : Nat) (hm : m < n) :
    computeTotalVerticalMomentum G D n m = some (total G.S G.S.levels (fun i j k => G.area i j k *
      (D m ⟨.state 4, i, j, k⟩ * D m ⟨.state 3, i, j, k⟩))) := by
  unfold computeTotalVerticalMomentum withInstance
  rw [if_neg (by omega)]
  simp only [Int.toNat_natCast]
  rw [hs, if_neg (by simp), nodes_add, zero_add]
  congr 2
  funext i j k
  ring

/-- **C86 (totals).**  With MPI, process 0 gets the sum over all patches, however they are distributed; the others get
zero. -/
theorem C86_total (ranks : List (List ℝ)) (rank : Nat) :
    gridTotal true ranks rank = if rank = 0 then ranks.flatten.sum else 0 := by
  have hf : ∀ (l : List ℝ) (x : ℝ), l.foldl (fun acc x => acc + x) x = x + l.sum := by
    intro l
    induction l with
    | nil => simp
    | cons a l ih => intro x; rw [List.foldl_cons, ih, List.sum_cons]; ring
  unfold gridTotal
  by_cases h : rank = 0
  · rw [if_pos ⟨rfl, h⟩, if_pos h, hf, zero_add, List.sum_flatten]
    congr 1
    refine List.map_congr_left (fun l _ => ?_)
    unfold localTotal
    rw [hf, zero_add]
  · rw [if_neg (fun e => h e.2), if_neg h]

end Verif.Thermo
