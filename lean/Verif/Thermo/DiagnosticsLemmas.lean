import Verif.Nonhydro.Prepare
import Verif.Thermo.ConstantsProps
import Verif.Thermo.DiagnosticsSpec

/-!
# Lemmas about the diagnostics
-/

namespace Verif.Thermo

open Verif.Horiz Verif.Nonhydro

theorem columns_add (S : Shape) (f : Nat → Nat → ℝ → ℝ) (g : Nat → Nat → ℝ) (hf : ∀ i j x, f i j x = x + g i j) (x : ℝ) :
    columns S f x = x + ∑ i ∈ Finset.range (S.elemA * S.order), ∑ j ∈ Finset.range (S.elemB * S.order),
      g (S.halo + i) (S.halo + j) := by
  unfold columns
  simp only [hf]
  exact loop_add₂ _ _ (fun i j => g (S.halo + i) (S.halo + j)) x

/-- A nest of loops that adds is a sum. -/
theorem nodes_add (S : Shape) (n : Nat) (f : Nat → Nat → Nat → ℝ) (x : ℝ) :
    nodes S n (fun i j k e => e + f i j k) x = x + total S n f := by
  unfold nodes
  rw [columns_add S _ (fun i j => ∑ k ∈ Finset.range n, f i j k) (fun i j x => loop_add n (f i j) x)]
  rfl

/-- A nest of loops over columns in which each pass touches its own cells. -/
theorem columns_pass {ι : Type} (S : Shape) (body : Nat → Nat → (ι → ℝ) → ι → ℝ) (T : Nat → Nat → ι → Prop)
    (h : ∀ i j, Touches (body i j) (T i j)) (hd : ∀ i j i' j' x, T i j x → T i' j' x → i = i' ∧ j = j') (s : ι → ℝ) :
    (∀ x, (∀ i j, Interior S i j → ¬ T i j x) → columns S body s x = s x) ∧
    ∀ i j, Interior S i j → ∀ x, T i j x → columns S body s x = body i j s x := by
  have h1 : ∀ i, Touches (loop (S.elemB * S.order) (fun j s => body (S.halo + i) (S.halo + j) s))
      (fun x => ∃ j, j < S.elemB * S.order ∧ T (S.halo + i) (S.halo + j) x) := fun i =>
    loop_touches _ _ (fun j x => T (S.halo + i) (S.halo + j) x) (fun j _ => h _ _)
      (fun j j' _ _ x a b => by have := (hd _ _ _ _ x a b).2; omega)
  have h2 := loop_pass (S.elemA * S.order)
    (fun i s => loop (S.elemB * S.order) (fun j s => body (S.halo + i) (S.halo + j) s) s) _ (fun i _ => h1 i)
    (fun i i' _ _ x ⟨j, _, a⟩ ⟨j', _, b⟩ => by have := (hd _ _ _ _ x a b).1; omega) s
  constructor
  · intro x hx
    refine h2.1 x ?_
    rintro i hi ⟨j, hj, ht⟩
    exact hx _ _ (by unfold Interior; omega) ht
  · intro i j hI x ht
    obtain ⟨a1, a2, a3, a4⟩ := hI
    have ei : S.halo + (i - S.halo) = i := by omega
    have ej : S.halo + (j - S.halo) = j := by omega
    have h3 := h2.2 (i - S.halo) (by omega) x ⟨j - S.halo, by omega, by rw [ei, ej]; exact ht⟩
    have h4 := (loop_pass (S.elemB * S.order) (fun j s => body i (S.halo + j) s) (fun j x => T i (S.halo + j) x)
      (fun j _ => h _ _) (fun j j' _ _ x a b => by have := (hd _ _ _ _ x a b).2; omega) s).2 (j - S.halo) (by omega) x
      (by rw [ej]; exact ht)
    simp only [ei] at h3
    simp only [ej] at h4
    exact h3.trans h4

/-- A nest of loops that fills an array with values that do not depend on it. -/
theorem nodes_fill (S : Shape) (n : Nat) (f : Nat → Nat → Nat → ℝ) (s : Field) (i j k : Nat) :
    nodes S n (fun i j k s => put s (i, j, k) (f i j k)) s (i, j, k) =
      open Classical in if Interior S i j ∧ k < n then f i j k else s (i, j, k) := by
  have ht : ∀ i j, Touches (fun s => loop n (fun k s => put s (i, j, k) (f i j k)) s)
      (fun x : Nat × Nat × Nat => x.1 = i ∧ x.2.1 = j) := by
    intro i j
    have hb : ∀ k, Touches (fun s => put s (i, j, k) (f i j k)) (fun x : Nat × Nat × Nat => x = (i, j, k)) :=
      fun k => touches_put (i, j, k) (fun _ => f i j k) (fun _ _ _ => rfl)
    have hl := loop_pass n (fun k s => put s (i, j, k) (f i j k)) (fun k x => x = (i, j, k)) (fun k _ => hb k)
      (fun k k' _ _ x a b => by rw [a] at b; simpa using b)
    constructor
    · intro s x hx
      refine (hl s).1 x ?_
      rintro k - rfl
      exact hx ⟨rfl, rfl⟩
    · rintro s s' he ⟨i', j', k'⟩ ⟨h1, h2⟩
      simp only at h1 h2
      subst h1 h2
      by_cases hk : k' < n
      · rw [(hl s).2 k' hk _ rfl, (hl s').2 k' hk _ rfl]
        simp [put]
      · rw [(hl s).1 _ (fun k hk' e => by simp at e; omega), (hl s').1 _ (fun k hk' e => by simp at e; omega)]
        exact he _ ⟨rfl, rfl⟩
  have hp := columns_pass S _ _ ht (fun i j i' j' x a b => ⟨a.1.symm.trans b.1, a.2.symm.trans b.2⟩) s
  have hb : ∀ k, Touches (fun s => put s (i, j, k) (f i j k)) (fun x : Nat × Nat × Nat => x = (i, j, k)) :=
    fun k => touches_put (i, j, k) (fun _ => f i j k) (fun _ _ _ => rfl)
  have hl := loop_pass n (fun k s => put s (i, j, k) (f i j k)) (fun k x => x = (i, j, k)) (fun k _ => hb k)
    (fun k k' _ _ x a b => by rw [a] at b; simpa using b) s
  unfold nodes
  by_cases hI : Interior S i j
  · rw [hp.2 i j hI _ ⟨rfl, rfl⟩]
    by_cases hk : k < n
    · rw [hl.2 k hk _ rfl, if_pos ⟨hI, hk⟩]
      simp [put]
    · rw [hl.1 _ (fun k' hk' e => by simp at e; omega), if_neg (fun h => hk h.2)]
  · rw [hp.1 _ (fun i' j' hI' h => by
      obtain ⟨h1, h2⟩ := h
      simp only at h1 h2
      subst h1 h2
      exact hI hI'), if_neg (fun h => hI h.1)]

theorem interior_element (S : Shape) (i j : Nat) (h : Interior S i j) : ∃ a b p q, a < S.elemA ∧ b < S.elemB ∧
    p < S.order ∧ q < S.order ∧ i = S.at a p ∧ j = S.at b q := by
  obtain ⟨h1, h2, h3, h4⟩ := h
  have ho : 0 < S.order := by
    rcases Nat.eq_zero_or_pos S.order with e | e
    · rw [e] at h2
      omega
    · exact e
  refine ⟨(i - S.halo) / S.order, (j - S.halo) / S.order, (i - S.halo) % S.order, (j - S.halo) % S.order,
    ?_, ?_, Nat.mod_lt _ ho, Nat.mod_lt _ ho, ?_, ?_⟩
  · exact Nat.div_lt_of_lt_mul (by rw [Nat.mul_comm]; omega)
  · exact Nat.div_lt_of_lt_mul (by rw [Nat.mul_comm]; omega)
  · have := Nat.div_add_mod (i - S.halo) S.order
    rw [Nat.mul_comm] at this
    unfold Shape.at
    omega
  · have := Nat.div_add_mod (j - S.halo) S.order
    rw [Nat.mul_comm] at this
    unfold Shape.at
    omega

theorem lower_at (G : Gauge) (u : Data) (i j k : Nat) (h : Interior G.S i j) (hk : k < G.S.levels) :
    lower G u ⟨.state 2, i, j, k⟩ = heat G u i j k ∧ lower G u ⟨.state 4, i, j, k⟩ = density G u i j k := by
  obtain ⟨a, b, p, q, ha, hb, hp, hq, rfl, rfl⟩ := interior_element _ _ _ h
  unfold lower heat density lowered
  cases hP : G.pOnEdge <;> cases hR : G.rOnEdge <;> simp only [hP, hR, if_true, if_false, Bool.false_eq_true]
  · exact ⟨trivial, trivial⟩
  · exact ⟨mapColumns_other _ _ _ _ _ _ _ _ (by simp), mapColumns_at _ _ _ _ _ _ _ a b p q k ha hb hp hq hk⟩
  · exact ⟨mapColumns_at _ _ _ _ _ _ _ a b p q k ha hb hp hq hk, mapColumns_other _ _ _ _ _ _ _ _ (by simp)⟩
  · refine ⟨?_, ?_⟩
    · rw [mapColumns_other _ _ _ _ _ _ _ _ (by simp), mapColumns_at _ _ _ _ _ _ _ a b p q k ha hb hp hq hk]
    · rw [mapColumns_at _ _ _ _ _ _ _ a b p q k ha hb hp hq hk]
      refine Finset.sum_congr rfl (fun l _ => ?_)
      rw [mapColumns_other _ _ _ _ _ _ _ _ (by simp [edge])]

theorem lower_other (G : Gauge) (u : Data) (x : Cell) (h2 : x.v = .state 2 → G.pOnEdge = false)
    (h4 : x.v = .state 4 → G.rOnEdge = false) : lower G u x = u x := by
  unfold lower
  cases hP : G.pOnEdge <;> cases hR : G.rOnEdge <;> simp only [hP, hR, if_true, if_false, Bool.false_eq_true]
  · exact mapColumns_other _ _ _ _ _ _ _ _ (fun e => by rw [h4 e] at hR; cases hR)
  · exact mapColumns_other _ _ _ _ _ _ _ _ (fun e => by rw [h2 e] at hP; cases hP)
  · rw [mapColumns_other _ _ _ _ _ _ _ _ (fun e => by rw [h4 e] at hR; cases hR),
      mapColumns_other _ _ _ _ _ _ _ _ (fun e => by rw [h2 e] at hP; cases hP)]

/-- The gas law and internal energy for an ideal gas. -/
theorem ideal (r cp p0 ρ x : ℝ) (hr : 0 < r) (hc : r < cp) (hp : 0 < p0) (hρ : ρ ≠ 0) (hx : 0 < x) :
    idealPressure r cp p0 x / (ρ * r) = idealTemperature r cp p0 (x / ρ) (idealPressure r cp p0 x) ∧
    idealPressure r cp p0 x / (cp / (cp - r) - 1) =
      ρ * (cp - r) * idealTemperature r cp p0 (x / ρ) (idealPressure r cp p0 x) := by
  have hv : 0 < cp - r := sub_pos.2 hc
  have hcp : 0 < cp := hr.trans hc
  have hq : 0 < r * x / p0 := by positivity
  have e1 : idealPressure r cp p0 x / p0 = (r * x / p0) ^ (cp / (cp - r)) := by
    unfold idealPressure
    rw [mul_div_cancel_left₀ _ hp.ne']
  have e2 : ((r * x / p0) ^ (cp / (cp - r))) ^ (r / cp) = (r * x / p0) ^ (r / (cp - r)) := by
    rw [← Real.rpow_mul hq.le]
    congr 1
    field_simp
  have hs : cp / (cp - r) = 1 + r / (cp - r) := by
    field_simp
    ring
  have e3 : idealPressure r cp p0 x = p0 * (r * x / p0 * (r * x / p0) ^ (r / (cp - r))) := by
    unfold idealPressure
    conv_lhs => rw [hs, Real.rpow_add hq, Real.rpow_one]
  have e4 : idealTemperature r cp p0 (x / ρ) (idealPressure r cp p0 x) = x / ρ * (r * x / p0) ^ (r / (cp - r)) := by
    unfold idealTemperature
    rw [e1, e2]
  rw [e4]
  constructor
  · rw [e3]
    field_simp
  · rw [e3, hs, add_sub_cancel_left]
    field_simp

end Verif.Thermo
