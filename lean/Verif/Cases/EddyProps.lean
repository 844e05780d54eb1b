/-
C149: the shallow water eddy test case.
-/
import Verif.Cases.Eddy
import Verif.Cases.InstabilityProps
namespace Verif.Cases.Eddy

open Real Instability

/-- C149: the wind blows between 180/7 and 450/7 degrees of both hemispheres and nowhere else, but for the poleward edges; there its speed is positive, at
most 80 metres per second, with 80 exactly at 45 degrees north and south. -/
theorem C149_jets (lat : ℝ) (h : |lat| ≠ 5 * π / 14) :
    (π / 7 < |lat| ∧ |lat| < 5 * π / 14 → ∃ u, eddyWind lat = some u ∧ 0 < u ∧ u ≤ 80 ∧ (u = 80 ↔ lat = π / 4 ∨ lat = -(π / 4)))
      ∧ (¬ (π / 7 < |lat| ∧ |lat| < 5 * π / 14) → eddyWind lat = some 0) := by
  have e0 : theta0 = π / 7 := rfl
  have e1 : theta1 = 5 * π / 14 := by unfold theta1 theta0; ring
  rw [← e1, ← e0]
  rw [← e1] at h
  constructor
  · rintro ⟨h0, h1⟩
    obtain ⟨u, hu, hp, hl, hm⟩ := C147_jet _ h0 h1
    refine ⟨u, hu, hp, hl, hm.trans ?_⟩
    exact abs_eq (by have := pi_pos; positivity)
  · intro hn
    refine C147_outside_jet _ ?_
    by_cases h0 : |lat| ≤ theta0
    · exact Or.inl h0
    · exact Or.inr (lt_of_le_of_ne (not_lt.1 fun h1 => hn ⟨not_le.1 h0, h1⟩) (Ne.symm h))

/-- C149: the wind is the same in both hemispheres. -/
theorem C149_hemispheres (lat : ℝ) : eddyWind (-lat) = eddyWind lat := by
  unfold eddyWind
  rw [abs_neg]

/-- C149, that the state is finite, is false: at the poleward edges of both jets it is not. -/
theorem C149_finite_false (radius g lon : ℝ) (h1 : -π ≤ lon) (h2 : lon ≤ π) :
    eddyState radius g lon (5 * π / 14) = .notFinite ∧ eddyState radius g lon (-(5 * π / 14)) = .notFinite := by
  have e1 : theta1 = 5 * π / 14 := by unfold theta1 theta0; ring
  have hw : ∀ lat, |lat| = theta1 → eddyWind lat = none := by
    intro lat hl
    unfold eddyWind
    rw [hl]
    exact (C147_finite_false 1 1 1 0 (by linarith [pi_pos]) pi_pos.le).1
  have key : ∀ lat, |lat| = theta1 → eddyState radius g lon lat = .notFinite := by
    intro lat hl
    unfold eddyState
    dsimp only
    rw [if_neg (not_lt.2 h2), if_neg (by push Not; exact ⟨h1, h2⟩), hw lat hl]
    cases eddyTotal radius eddyOmega (places lat) <;> rfl
  have hp : 0 < 5 * π / 14 := by have := pi_pos; positivity
  exact ⟨key _ (by rw [abs_of_pos hp, e1]), key _ (by rw [abs_neg, abs_of_pos hp, e1])⟩

theorem state_eq (radius g lon lat : ℝ) (h1 : -π ≤ lon) (h2 : lon ≤ 3 * π) :
    eddyState radius g lon lat = match eddyTotal radius eddyOmega (places lat), eddyWind lat with
      | some dH, some up => .state up 0 (h0 - dH * (0.5 * (latX lat 1 - latX lat 0)) / g + hill (folded lon) lat)
      | _, _ => .notFinite := by
  have hpi := pi_pos
  unfold eddyState
  dsimp only
  rw [if_neg]
  · cases eddyTotal radius eddyOmega (places lat) with
    | none => rfl
    | some dH =>
      cases eddyWind lat with
      | none => rfl
      | some up =>
        dsimp only
        have hf : folded lon = if lon > π then lon - 2 * π else lon := rfl
        rw [cos_folded, ← hf]
        simp only [sin_zero, mul_zero, zero_mul, zero_div, zero_add]
        congr 1
        · split
          · rfl
          · rename_i hc
            have : cos lon ≠ 0 := by
              intro h
              apply hc
              rw [h]
              norm_num
            rw [mul_div_cancel_right₀ _ this]
        · unfold hill
          congr 2
          · congr 1
            ring_nf
          · congr 1
            ring
  · push Not
    by_cases h : lon > π
    · rw [if_pos h]
      constructor <;> linarith
    · rw [if_neg h]
      exact ⟨h1, not_lt.1 h⟩

/-- The sum does not depend on the radius, as the rate of rotation is zero. -/
theorem total_radius (r r' : ℝ) (L : List ℝ) : eddyTotal r eddyOmega L = eddyTotal r' eddyOmega L := by
  unfold eddyTotal eddyOmega
  simp only [mul_zero, zero_mul, zero_add]

/-- C149: wherever the state is finite the wind blows along circles of latitude with the speed of the jets, the height without the hill does not depend on
longitude, and neither depends on the radius of the Earth. -/
theorem C149_zonal (radius g lat : ℝ) (h : ∃ u v k, eddyState radius g 0 lat = .state u v k) :
    ∃ u b, eddyWind lat = some u ∧ ∀ radius' lon, -π ≤ lon → lon ≤ 3 * π →
      eddyState radius' g lon lat = .state u 0 (b + hill (folded lon) lat) := by
  have hpi := pi_pos
  obtain ⟨u, v, k, hs⟩ := h
  rw [state_eq radius g 0 lat (by linarith) (by linarith)] at hs
  cases ht : eddyTotal radius eddyOmega (places lat) with
  | none => rw [ht] at hs; cases hs
  | some dH =>
    cases hw : eddyWind lat with
    | none => rw [ht, hw] at hs; cases hs
    | some up =>
      refine ⟨up, h0 - dH * (0.5 * (latX lat 1 - latX lat 0)) / g, rfl, fun r lon h1 h2 => ?_⟩
      rw [state_eq r g lon lat h1 h2, total_radius r radius, ht, hw]

theorem le_latX {lat : ℝ} (h : -(π / 2) ≤ lat) (i : Nat) : -(π / 2) ≤ latX lat i := by
  unfold latX
  have : 0 ≤ (lat + 0.5 * π) / (intervals lat : ℝ) * (i : ℝ) := by
    have : 0 ≤ lat + 0.5 * π := by linarith
    positivity
  linarith

theorem latX_mono {lat : ℝ} (h : -(π / 2) ≤ lat) (i : Nat) : latX lat i ≤ latX lat (i + 1) := by
  unfold latX
  have : 0 ≤ (lat + 0.5 * π) / (intervals lat : ℝ) := by
    have : 0 ≤ lat + 0.5 * π := by linarith
    positivity
  push_cast
  nlinarith

theorem le_place {lat : ℝ} (h : -(π / 2) ≤ lat) (i : Nat) (m : ℝ) (hm : m = -1 ∨ m = 1) : -(π / 2) ≤ place lat i m := by
  have ha := le_latX h i
  have hb := latX_mono h i
  have hs0 : 0 ≤ sqrt (1 / 3) := sqrt_nonneg _
  have hs1 : sqrt (1 / 3) ≤ 1 := by
    rw [sqrt_le_left (by norm_num)]
    norm_num
  unfold place
  generalize latX lat (i + 1) = p at *
  generalize latX lat i = q at *
  generalize sqrt (1 / 3) = s at *
  rcases hm with rfl | rfl
  · nlinarith [mul_nonneg (sub_nonneg.2 hs1) (sub_nonneg.2 hb)]
  · nlinarith [mul_nonneg hs0 (sub_nonneg.2 hb)]

theorem places_between {lat : ℝ} (h : -(π / 2) ≤ lat) {x : ℝ} (hx : x ∈ places lat) : -(π / 2) ≤ x ∧ x ≤ lat := by
  unfold places at hx
  rw [List.mem_flatMap] at hx
  obtain ⟨i, hi, hx⟩ := hx
  have hi := List.mem_range.1 hi
  simp only [List.mem_cons, List.not_mem_nil, or_false] at hx
  rcases hx with rfl | rfl
  · exact ⟨le_place h i _ (Or.inl rfl), place_le h hi _ (Or.inl rfl)⟩
  · exact ⟨le_place h i _ (Or.inr rfl), place_le h hi _ (Or.inr rfl)⟩

theorem tan_south {x : ℝ} (h1 : -(π / 2) ≤ x) (h2 : x ≤ 0) : tan x ≤ 0 := by
  rw [tan_eq_sin_div_cos]
  exact div_nonpos_of_nonpos_of_nonneg (sin_nonpos_of_nonpos_of_neg_pi_le h2 (by linarith [pi_pos]))
    (cos_nonneg_of_neg_pi_div_two_le_of_le h1 (by linarith [pi_pos]))

theorem total_fold (radius : ℝ) (L : List ℝ) (h : ∀ x ∈ L, -(π / 2) ≤ x ∧ x ≤ 0) (s0 s : ℝ)
    (hs : L.foldl (fun acc x => acc.bind fun s => (eddyWind x).map fun u => s + (2 * radius * eddyOmega * sin x + u * tan x) * u) (some s0) = some s) :
    s ≤ s0 := by
  induction L generalizing s0 with
  | nil =>
    simp only [List.foldl_nil, Option.some.injEq] at hs
    exact hs.ge
  | cons x L ih =>
    rw [List.foldl_cons] at hs
    cases hw : eddyWind x with
    | none =>
      rw [hw] at hs
      exfalso
      have : ∀ L : List ℝ, L.foldl (fun (acc : Option ℝ) x => acc.bind fun s => (eddyWind x).map fun u =>
          s + (2 * radius * eddyOmega * sin x + u * tan x) * u) none = none := by
        intro L
        induction L with
        | nil => rfl
        | cons y L ih => rw [List.foldl_cons]; exact ih
      simp only [Option.bind_some, Option.map_none] at hs
      rw [this] at hs
      cases hs
    | some u =>
      rw [hw] at hs
      simp only [Option.bind_some, Option.map_some] at hs
      have hx := h x (by simp)
      have ht := tan_south hx.1 hx.2
      have := ih (fun y hy => h y (by simp [hy])) _ hs
      unfold eddyOmega at this
      nlinarith [mul_nonneg (neg_nonneg.2 ht) (sq_nonneg u)]

/-- C149: up to the equator the surface without the hill is nowhere below that at the south pole. -/
theorem C149_south (radius g lon lat u v k : ℝ) (hg : 0 < g) (h1 : -π ≤ lon) (h2 : lon ≤ 3 * π) (h3 : -(π / 2) ≤ lat) (h4 : lat ≤ 0)
    (h : eddyState radius g lon lat = .state u v k) : 10158.18617045463179 + hill (folded lon) lat ≤ k := by
  rw [show (10158.18617045463179 : ℝ) = h0 from rfl]
  rw [state_eq radius g lon lat h1 h2] at h
  cases ht : eddyTotal radius eddyOmega (places lat) with
  | none => rw [ht] at h; cases h
  | some dH =>
    cases hw : eddyWind lat with
    | none => rw [ht, hw] at h; cases h
    | some up =>
      rw [ht, hw] at h
      simp only [Point.state.injEq] at h
      obtain ⟨-, -, rfl⟩ := h
      have hd : dH ≤ 0 := total_fold radius _ (fun x hx => ⟨(places_between h3 hx).1, (places_between h3 hx).2.trans h4⟩) 0 dH ht
      have hm := latX_mono h3 0
      have : dH * (0.5 * (latX lat 1 - latX lat 0)) / g ≤ 0 :=
        div_nonpos_of_nonpos_of_nonneg (mul_nonpos_of_nonpos_of_nonneg hd (by linarith)) hg.le
      linarith

/-- C149: poleward of the southern jet nothing moves, and the surface is level but for the hill. -/
theorem C149_rest (radius g lon lat : ℝ) (h1 : -π ≤ lon) (h2 : lon ≤ 3 * π) (h3 : -(π / 2) ≤ lat) (h4 : lat < -(5 * π / 14)) :
    eddyState radius g lon lat = .state 0 0 (10158.18617045463179 + hill (folded lon) lat) := by
  rw [show (10158.18617045463179 : ℝ) = h0 from rfl]
  have hp := pi_pos
  have hz : ∀ x, x < -(5 * π / 14) → eddyWind x = some 0 := by
    intro x hx
    have : |x| = -x := abs_of_neg (by linarith)
    exact (C149_jets x (by rw [this]; intro h; linarith)).2 (by rw [this]; intro h; linarith [h.2])
  have ht : eddyTotal radius eddyOmega (places lat) = some 0 := by
    have : ∀ L : List ℝ, (∀ x ∈ L, x ≤ lat) → eddyTotal radius eddyOmega L = some 0 := by
      intro L hL
      unfold eddyTotal
      induction L with
      | nil => rfl
      | cons x L ih =>
        rw [List.foldl_cons, hz x (lt_of_le_of_lt (hL x (by simp)) h4)]
        simp only [Option.bind_some, Option.map_some, mul_zero, add_zero]
        exact ih fun y hy => hL y (by simp [hy])
    exact this _ fun x hx => (places_between h3 hx).2
  rw [state_eq radius g lon lat h1 h2, ht, hz lat h4]
  simp

/-- C149: longitudes are refused exactly below minus half a turn and above one and a half turns. -/
theorem C149_refused (radius g lon lat : ℝ) : eddyState radius g lon lat = .thrown ↔ lon < -π ∨ 3 * π < lon := by
  have hpi := pi_pos
  constructor
  · intro h
    by_contra hn
    push Not at hn
    rw [state_eq radius g lon lat hn.1 hn.2] at h
    split at h <;> cases h
  · intro h
    unfold eddyState
    dsimp only
    rw [if_pos]
    rcases h with h | h
    · rw [if_neg (by linarith)]
      exact Or.inl h
    · rw [if_pos (by linarith)]
      right
      linarith

/-- 45 degrees south and the south pole. -/
example : (∃ u, eddyWind (-(π / 4)) = some u ∧ u = 80) ∧ eddyState 1 1 0 (-(π / 2)) = .state 0 0 (10158.18617045463179 + hill 0 (-(π / 2))) := by
  have hpi := pi_pos
  have ha : |(-(π / 4))| = π / 4 := by rw [abs_neg, abs_of_pos (by linarith)]
  constructor
  · obtain ⟨u, h1, _, _, h2⟩ := (C149_jets (-(π / 4)) (by rw [ha]; intro h; linarith)).1 (by rw [ha]; constructor <;> linarith)
    exact ⟨u, h1, h2.2 (Or.inr rfl)⟩
  · have := C149_rest 1 1 0 (-(π / 2)) (by linarith) (by linarith) le_rfl (by linarith)
    rw [this]
    unfold folded
    rw [if_neg (by linarith)]

end Verif.Cases.Eddy
