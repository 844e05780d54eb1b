/-
C147: the barotropically unstable jet.
-/
import Verif.Cases.Instability
import Mathlib.Tactic.Linarith
import Mathlib.Tactic.FieldSimp
import Mathlib.Tactic.Positivity
import Mathlib.Tactic.NormNum

namespace Verif.Cases.Instability

open Real

/-- Specification: the hill added to the height, at a longitude between minus and plus half a turn. -/
noncomputable def hill (lon lat : ℝ) : ℝ := 120 * cos lat * exp (-(3 * lon) ^ 2) * exp (-(15 * (π / 4 - lat)) ^ 2)

/-- Specification: the same longitude between minus and plus half a turn, for longitudes up to one and a half turns. -/
noncomputable def folded (lon : ℝ) : ℝ :=
  open Classical in if π < lon then lon - 2 * π else lon

theorem edges : theta0 < theta1 ∧ (theta0 + theta1) / 2 = π / 4 ∧ 0 < theta0 := by
  unfold theta1 theta0
  have := pi_pos
  refine ⟨by linarith, by ring, by positivity⟩

theorem wind_inside {lat : ℝ} (h0 : theta0 < lat) (h1 : lat < theta1) :
    wind lat = some (u0 / exp (-4 / (theta1 - theta0) / (theta1 - theta0)) * exp (1 / (lat - theta0) / (lat - theta1))) := by
  unfold wind
  rw [if_neg (not_lt.2 h0.le), if_neg (not_lt.2 h1.le), if_neg h0.ne', if_neg h1.ne]

theorem wind_value {lat : ℝ} (h0 : theta0 < lat) (h1 : lat < theta1) :
    wind lat = some (80 * exp (4 / (theta1 - theta0) ^ 2 - 1 / ((lat - theta0) * (theta1 - lat)))) := by
  rw [wind_inside h0 h1, Option.some.injEq]
  have ha : lat - theta0 ≠ 0 := (sub_pos.2 h0).ne'
  have hb : theta1 - lat ≠ 0 := (sub_pos.2 h1).ne'
  have hb' : lat - theta1 ≠ 0 := (sub_neg.2 h1).ne
  have hd : theta1 - theta0 ≠ 0 := (sub_pos.2 (h0.trans h1)).ne'
  have e1 : -4 / (theta1 - theta0) / (theta1 - theta0) = -(4 / (theta1 - theta0) ^ 2) := by field_simp
  have e2 : 1 / (lat - theta0) / (lat - theta1) = -(1 / ((lat - theta0) * (theta1 - lat))) := by
    rw [show lat - theta1 = -(theta1 - lat) by ring]
    field_simp
  rw [e1, e2, sub_eq_add_neg (4 / _), exp_add, exp_neg (4 / (theta1 - theta0) ^ 2), div_inv_eq_mul]
  unfold u0
  ring

/-- C147: the wind is zero up to the southern edge and beyond the northern edge of the jet. -/
theorem C147_outside_jet (lat : ℝ) (h : lat ≤ theta0 ∨ theta1 < lat) : wind lat = some 0 := by
  unfold wind
  by_cases h1 : lat < theta0
  · rw [if_pos h1]
  · rw [if_neg h1]
    by_cases h2 : lat > theta1
    · rw [if_pos h2]
    · rw [if_neg h2, if_pos]
      rcases h with h | h
      · exact le_antisymm h (not_lt.1 h1)
      · exact absurd h h2

/-- C147: within the jet the wind is positive, at most 80 metres per second, and that only half way between the edges, at
45 degrees. -/
theorem C147_jet (lat : ℝ) (h0 : theta0 < lat) (h1 : lat < theta1) : ∃ u, wind lat = some u ∧ 0 < u ∧ u ≤ 80 ∧ (u = 80 ↔ lat = π / 4) := by
  refine ⟨_, wind_value h0 h1, by positivity, ?_⟩
  have ha : 0 < lat - theta0 := sub_pos.2 h0
  have hb : 0 < theta1 - lat := sub_pos.2 h1
  have hd : 0 < theta1 - theta0 := sub_pos.2 (h0.trans h1)
  have key : 4 / (theta1 - theta0) ^ 2 - 1 / ((lat - theta0) * (theta1 - lat))
      = -((2 * lat - (theta0 + theta1)) ^ 2 / ((theta1 - theta0) ^ 2 * ((lat - theta0) * (theta1 - lat)))) := by
    field_simp
    ring
  have hm : theta0 + theta1 = 2 * (π / 4) := by
    have := edges.2.1
    linarith
  rw [key, hm]
  have hq : 0 < (theta1 - theta0) ^ 2 * ((lat - theta0) * (theta1 - lat)) := by positivity
  constructor
  · have : exp (-((2 * lat - 2 * (π / 4)) ^ 2 / ((theta1 - theta0) ^ 2 * ((lat - theta0) * (theta1 - lat))))) ≤ 1 := by
      rw [exp_le_one_iff]
      have : 0 ≤ (2 * lat - 2 * (π / 4)) ^ 2 / ((theta1 - theta0) ^ 2 * ((lat - theta0) * (theta1 - lat))) := by positivity
      linarith
    linarith
  · constructor
    · intro h
      have h2 : exp (-((2 * lat - 2 * (π / 4)) ^ 2 / ((theta1 - theta0) ^ 2 * ((lat - theta0) * (theta1 - lat))))) = 1 := by linarith
      rw [exp_eq_one_iff, neg_eq_zero, div_eq_zero_iff] at h2
      rcases h2 with h2 | h2
      · have := pow_eq_zero_iff (two_ne_zero) |>.1 h2
        linarith
      · exact absurd h2 hq.ne'
    · intro h
      rw [h]
      simp

/-- **C147.** In numbers: the wind blows from 180/7 to 450/7 degrees north and nowhere else, but for the northern edge. -/
theorem C147_edges (lat : ℝ) (h : lat ≠ 5 * π / 14) : (∃ u, wind lat = some u ∧ 0 < u) ↔ π / 7 < lat ∧ lat < 5 * π / 14 := by
  have e0 : theta0 = π / 7 := rfl
  have e1 : theta1 = 5 * π / 14 := by unfold theta1 theta0; ring
  rw [← e0, ← e1]
  rw [← e1] at h
  constructor
  · rintro ⟨u, hu, hp⟩
    by_contra hn
    have hz : wind lat = some 0 := C147_outside_jet lat (by
      by_cases h0 : lat ≤ theta0
      · exact Or.inl h0
      · exact Or.inr (lt_of_le_of_ne (not_lt.1 fun h1 => hn ⟨not_le.1 h0, h1⟩) (Ne.symm h)))
    rw [hz, Option.some.injEq] at hu
    exact hp.ne hu
  · rintro ⟨h0, h1⟩
    obtain ⟨u, hu, hp, -⟩ := C147_jet lat h0 h1
    exact ⟨u, hu, hp⟩

/-- C147: the jet is symmetric about 45 degrees. -/
theorem C147_symmetric (d : ℝ) (h : |d| ≠ theta1 - π / 4) : wind (π / 4 + d) = wind (π / 4 - d) := by
  have hm := edges.2.1
  have h01 := edges.1
  have key : ∀ d, 0 ≤ d → d ≠ theta1 - π / 4 → wind (π / 4 + d) = wind (π / 4 - d) := by
    intro d hd hne
    rcases lt_or_gt_of_ne hne with hlt | hgt
    · rw [wind_value (by linarith) (by linarith), wind_value (by linarith) (by linarith)]
      have : (π / 4 + d - theta0) * (theta1 - (π / 4 + d)) = (π / 4 - d - theta0) * (theta1 - (π / 4 - d)) := by
        have e : theta0 = π / 2 - theta1 := by linarith
        rw [e]
        ring
      rw [this]
    · rw [C147_outside_jet _ (Or.inr (by linarith)), C147_outside_jet _ (Or.inl (by linarith))]
  rcases le_total 0 d with hd | hd
  · rw [abs_of_nonneg hd] at h
    exact key d hd h
  · rw [abs_of_nonpos hd] at h
    have := key (-d) (by linarith) h
    rw [sub_neg_eq_add, ← sub_eq_add_neg] at this
    exact this.symm

/-- C147, that the wind is finite, is false: at the northern edge of the jet it is not. -/
theorem C147_finite_false (radius omega g lon : ℝ) (h1 : -π ≤ lon) (h2 : lon ≤ π) :
    wind theta1 = none ∧ evaluate radius omega g lon theta1 = .notFinite := by
  have hw : wind theta1 = none := by
    unfold wind
    have := edges.1
    rw [if_neg (not_lt.2 this.le), if_neg (lt_irrefl _), if_neg this.ne', if_pos rfl]
  refine ⟨hw, ?_⟩
  unfold evaluate
  dsimp only
  rw [if_neg (not_lt.2 h2), if_neg (by push Not; exact ⟨h1, h2⟩), hw]
  cases total radius omega (places theta1) <;> rfl

/-- C147: longitudes are refused exactly below minus half a turn and above one and a half turns. -/
theorem C147_refused (radius omega g lon lat : ℝ) : evaluate radius omega g lon lat = .thrown ↔ lon < -π ∨ 3 * π < lon := by
  have hpi := pi_pos
  unfold evaluate
  dsimp only
  by_cases h : lon > π
  · rw [if_pos h]
    by_cases h2 : lon - 2 * π < -π ∨ lon - 2 * π > π
    · rw [if_pos h2]
      refine ⟨fun _ => ?_, fun _ => rfl⟩
      rcases h2 with h2 | h2
      · linarith
      · right
        linarith
    · rw [if_neg h2]
      constructor
      · intro h3
        split at h3 <;> cases h3
      · rintro (h3 | h3)
        · linarith
        · exact absurd (Or.inr (by linarith)) h2
  · rw [if_neg h]
    by_cases h2 : lon < -π ∨ lon > π
    · rw [if_pos h2]
      refine ⟨fun _ => ?_, fun _ => rfl⟩
      rcases h2 with h2 | h2
      · exact Or.inl h2
      · exact absurd h2 h
    · rw [if_neg h2]
      constructor
      · intro h3
        split at h3 <;> cases h3
      · rintro (h3 | h3)
        · exact absurd (Or.inl h3) h2
        · have := not_lt.1 h
          linarith

theorem cos_folded (lon : ℝ) : cos (if lon > π then lon - 2 * π else lon) = cos lon := by
  split
  · rw [cos_sub_two_pi]
  · rfl

theorem evaluate_eq (radius omega g lon lat : ℝ) (h1 : -π ≤ lon) (h2 : lon ≤ 3 * π) :
    evaluate radius omega g lon lat = match total radius omega (places lat), wind lat with
      | some dH, some up => .state up 0 (h0 - dH * (0.5 * (latX lat 1 - latX lat 0)) / g + hill (folded lon) lat)
      | _, _ => .notFinite := by
  have hpi := pi_pos
  unfold evaluate
  dsimp only
  rw [if_neg]
  · cases total radius omega (places lat) with
    | none => rfl
    | some dH =>
      cases wind lat with
      | none => rfl
      | some up =>
        dsimp only
        have hf : folded lon = if lon > π then lon - 2 * π else lon := rfl
        rw [cos_folded, ← hf]
        simp only [sin_zero, mul_zero, zero_mul, zero_div, zero_add]
        congr 1
        · split
          · rfl
          · rename_i hc
            have : cos lon ≠ 0 := by
              intro h
              apply hc
              rw [h]
              norm_num
            rw [mul_div_cancel_right₀ _ this]
        · unfold hill
          congr 2
          · congr 1
            ring_nf
          · congr 1
            ring
  · push Not
    by_cases h : lon > π
    · rw [if_pos h]
      constructor <;> linarith
    · rw [if_neg h]
      exact ⟨h1, not_lt.1 h⟩

/-- C147: wherever the state is finite the wind blows along circles of latitude with the speed of the jet, and the height
without the hill does not depend on longitude. -/
theorem C147_zonal (radius omega g lat : ℝ) (h : ∃ u v k, evaluate radius omega g 0 lat = .state u v k) :
    ∃ u b, wind lat = some u ∧ ∀ lon, -π ≤ lon → lon ≤ 3 * π → evaluate radius omega g lon lat = .state u 0 (b + hill (folded lon) lat) := by
  have hpi := pi_pos
  obtain ⟨u, v, k, hs⟩ := h
  rw [evaluate_eq radius omega g 0 lat (by linarith) (by linarith)] at hs
  cases ht : total radius omega (places lat) with
  | none => rw [ht] at hs; cases hs
  | some dH =>
    cases hw : wind lat with
    | none => rw [ht, hw] at hs; cases hs
    | some up =>
      refine ⟨up, h0 - dH * (0.5 * (latX lat 1 - latX lat 0)) / g, rfl, fun lon h1 h2 => ?_⟩
      rw [evaluate_eq radius omega g lon lat h1 h2, ht, hw]

/-- C147: a turn does not change the state. -/
theorem C147_periodic (radius omega g lon lat : ℝ) (h1 : π < lon) (h2 : lon ≤ 3 * π) :
    evaluate radius omega g lon lat = evaluate radius omega g (lon - 2 * π) lat := by
  have hpi := pi_pos
  rw [evaluate_eq radius omega g lon lat (by linarith) h2, evaluate_eq radius omega g (lon - 2 * π) lat (by linarith) (by linarith)]
  have : folded lon = folded (lon - 2 * π) := by
    unfold folded
    rw [if_pos h1, if_neg (by linarith)]
  rw [this]

/-- C147: the hill is not negative and at most 120 metres. -/
theorem C147_hill (lon lat : ℝ) (h1 : -(π / 2) ≤ lat) (h2 : lat ≤ π / 2) : 0 ≤ hill lon lat ∧ hill lon lat ≤ 120 := by
  have hc := cos_nonneg_of_neg_pi_div_two_le_of_le h1 h2
  have hc1 := cos_le_one lat
  have e1 : exp (-(3 * lon) ^ 2) ≤ 1 := by rw [exp_le_one_iff]; nlinarith [sq_nonneg (3 * lon)]
  have e2 : exp (-(15 * (π / 4 - lat)) ^ 2) ≤ 1 := by rw [exp_le_one_iff]; nlinarith [sq_nonneg (15 * (π / 4 - lat))]
  unfold hill
  refine ⟨by positivity, ?_⟩
  have a1 : 120 * cos lat ≤ 120 := by linarith
  have a2 : 120 * cos lat * exp (-(3 * lon) ^ 2) ≤ 120 * 1 := mul_le_mul a1 e1 (exp_pos _).le (by norm_num)
  have a3 : 120 * cos lat * exp (-(3 * lon) ^ 2) * exp (-(15 * (π / 4 - lat)) ^ 2) ≤ 120 * 1 * 1 :=
    mul_le_mul a2 e2 (exp_pos _).le (by norm_num)
  linarith

theorem latX_le {lat : ℝ} (h : -(π / 2) ≤ lat) {i : Nat} (hi : i ≤ intervals lat) : latX lat i ≤ lat := by
  have hN : 0 < (intervals lat : ℝ) := by
    have : 0 < intervals lat := by
      unfold intervals
      dsimp only
      split
      · exact one_pos
      · omega
    exact_mod_cast this
  have hi' : (i : ℝ) ≤ intervals lat := by exact_mod_cast hi
  unfold latX
  have : (lat + 0.5 * π) / (intervals lat : ℝ) * (i : ℝ) ≤ lat + 0.5 * π := by
    rw [div_mul_eq_mul_div, div_le_iff₀ hN]
    exact mul_le_mul_of_nonneg_left hi' (by linarith)
  linarith

theorem place_le {lat : ℝ} (h : -(π / 2) ≤ lat) {i : Nat} (hi : i < intervals lat) (m : ℝ) (hm : m = -1 ∨ m = 1) : place lat i m ≤ lat := by
  have ha := latX_le h (i := i) hi.le
  have hb := latX_le h (i := i + 1) hi
  have hs0 : 0 ≤ sqrt (1 / 3) := sqrt_nonneg _
  have hs1 : sqrt (1 / 3) ≤ 1 := by
    rw [sqrt_le_left (by norm_num)]
    norm_num
  unfold place
  generalize latX lat (i + 1) = p at *
  generalize latX lat i = q at *
  generalize sqrt (1 / 3) = s at *
  rcases hm with rfl | rfl
  · nlinarith [mul_nonneg hs0 (sub_nonneg.2 ha), mul_nonneg hs0 (sub_nonneg.2 hb), mul_nonneg (sub_nonneg.2 hs1) (sub_nonneg.2 ha), mul_nonneg (sub_nonneg.2 hs1) (sub_nonneg.2 hb)]
  · nlinarith [mul_nonneg hs0 (sub_nonneg.2 ha), mul_nonneg hs0 (sub_nonneg.2 hb), mul_nonneg (sub_nonneg.2 hs1) (sub_nonneg.2 ha), mul_nonneg (sub_nonneg.2 hs1) (sub_nonneg.2 hb)]

theorem total_zero (radius omega : ℝ) (L : List ℝ) (h : ∀ x ∈ L, x ≤ theta0) : total radius omega L = some 0 := by
  unfold total
  induction L with
  | nil => rfl
  | cons x L ih =>
    rw [List.foldl_cons, C147_outside_jet x (Or.inl (h x (by simp)))]
    simp only [Option.bind_some, Option.map_some, mul_zero, add_zero]
    exact ih fun y hy => h y (by simp [hy])

/-- C147: south of the jet nothing moves, and the surface is level but for the hill. -/
theorem C147_south (radius omega g lon lat : ℝ) (h1 : -π ≤ lon) (h2 : lon ≤ 3 * π) (h3 : -(π / 2) ≤ lat) (h4 : lat ≤ theta0) :
    evaluate radius omega g lon lat = .state 0 0 (10158.18617045463179 + hill (folded lon) lat) := by
  rw [show (10158.18617045463179 : ℝ) = h0 from rfl]
  rw [evaluate_eq radius omega g lon lat h1 h2, C147_outside_jet lat (Or.inl h4), total_zero]
  · simp
  · intro x hx
    unfold places at hx
    rw [List.mem_flatMap] at hx
    obtain ⟨i, hi, hx⟩ := hx
    have hi := List.mem_range.1 hi
    simp only [List.mem_cons, List.not_mem_nil, or_false] at hx
    rcases hx with rfl | rfl
    · exact (place_le h3 hi _ (Or.inl rfl)).trans h4
    · exact (place_le h3 hi _ (Or.inr rfl)).trans h4

/-- The middle of the jet and the equator meet the hypotheses. -/
example : (∃ u, wind (π / 4) = some u ∧ u = 80) ∧ evaluate 1 1 1 0 0 = .state 0 0 (10158.18617045463179 + hill 0 0) := by
  have hpi := pi_pos
  constructor
  · obtain ⟨u, h1, _, _, h2⟩ := C147_jet (π / 4) (by have := edges; linarith [this.1, this.2.1]) (by have := edges; linarith [this.1, this.2.1])
    exact ⟨u, h1, h2.2 rfl⟩
  · have := C147_south 1 1 1 0 0 (by linarith) (by linarith) (by linarith) edges.2.2.le
    rw [this]
    unfold folded
    rw [if_neg (by linarith)]

end Verif.Cases.Instability
