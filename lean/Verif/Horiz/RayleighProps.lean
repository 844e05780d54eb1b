import Verif.Horiz.Rayleigh
import Verif.Horiz.Spec
import Verif.Horiz.DiffusionSamples
import Mathlib.Analysis.SpecialFunctions.Exp

/-!
# C77: Rayleigh friction
-/

namespace Verif.Horiz

/-! ### Vocabulary -/

/-- The variables friction acts on: all of the equation set, but for the nonhydrostatic equations not density, and in a
vertical slice not the second velocity either. -/
def Damped (eq : Equations) (xz : Bool) (c : Nat) : Prop :=
  c < eq.components ∧ (eq = .nonhydrostatic → c ≠ 4 ∧ (xz = true → c ≠ 1))

/-- The strength of friction on a variable at a point of the patch: zero outside the interior and where the variable has
no level or interface. -/
noncomputable def strength (P : Sponge) (x : Cell) : ℝ :=
  open Classical in
  match x.v with
  | .tracer _ => 0
  | .state c =>
    if Damped P.eq P.xz c ∧ Interior P.S x.iA x.iB then
      match P.located c with
      | .node => if x.k < P.S.levels then P.strengthNode x.iA x.iB x.k else 0
      | .redge => if x.k < P.S.levels + 1 then P.strengthREdge x.iA x.iB x.k else 0
      | .other => 0
    else 0

/-! ### Lemmas -/

theorem loop_pointwise (n : Nat) (body : Nat → Data → Data) (φ : Nat → Cell → ℝ → ℝ)
    (h : ∀ i u x, body i u x = φ i x (u x)) (u : Data) (x : Cell) :
    loop n body u x = loop n (fun i y => φ i x y) (u x) := by
  induction n with
  | zero => rfl
  | succ n ih => rw [loop_succ, loop_succ, h, ih]

theorem loop_single (n m : Nat) (g : ℝ → ℝ) (y : ℝ) :
    loop n (fun i y => if i = m then g y else y) y = if m < n then g y else y := by
  induction n with
  | zero => rfl
  | succ n ih =>
    rw [loop_succ, ih]
    by_cases h1 : n = m
    · subst h1; simp
    · by_cases h2 : m < n
      · simp [h1, h2, show m < n + 1 by omega]
      · simp [h1, h2, show ¬ m < n + 1 by omega]

/-- Ten cycles in closed form. -/
noncomputable def tenfold (dt nu r y : ℝ) : ℝ := r + (1 / (1 + 1 / 10 * dt * nu)) ^ 10 * (y - r)

theorem cycles (P : Sponge) (dt nu : ℝ) (x y : Cell) (u : Data) :
    loop 10 (fun _ u => cycle P dt nu x u) u y = if y = x then tenfold dt nu (P.ref x) (u x) else u y := by
  rw [loop_pointwise 10 _ (fun _ z t => if z = x then
    1 / (1 + 1 / 10 * dt * nu) * t + (1 - 1 / (1 + 1 / 10 * dt * nu)) * P.ref x else t)]
  · by_cases h : y = x
    · subst h
      simp only [if_true]
      have : ∀ n, loop n (fun _ t => 1 / (1 + 1 / 10 * dt * nu) * t + (1 - 1 / (1 + 1 / 10 * dt * nu)) * P.ref y) (u y) =
          P.ref y + (1 / (1 + 1 / 10 * dt * nu)) ^ n * (u y - P.ref y) := by
        intro n
        induction n with
        | zero => simp [loop]
        | succ n ih => rw [loop_succ, ih]; ring
      exact this 10
    · simp only [if_neg h]
      have : ∀ n, loop n (fun _ t => t) (u y) = u y := by
        intro n
        induction n with
        | zero => rfl
        | succ n ih => rw [loop_succ, ih]
      exact this 10
  · intro i u z
    unfold cycle put
    by_cases h : z = x
    · subst h; simp
    · simp [h]

theorem effective_iff (eq : Equations) (xz : Bool) (c : Nat) : c ∈ effective eq xz ↔ Damped eq xz c := by
  unfold effective Damped
  cases eq <;> cases xz <;> simp [Equations.components] <;> omega

theorem effective_nodup (eq : Equations) (xz : Bool) : (effective eq xz).Nodup := by
  cases eq <;> cases xz <;> decide

theorem damp_at (P : Sponge) (here : Located) (dt nu : ℝ) (iA iB k : Nat) (u : Data) (x : Cell) :
    open Classical in
    dampPoint P here dt nu iA iB k u x =
      if nu ≠ 0 ∧ (∃ c, x.v = .state c ∧ Damped P.eq P.xz c ∧ P.located c = here) ∧ x.iA = iA ∧ x.iB = iB ∧ x.k = k then
        tenfold dt nu (P.ref x) (u x) else u x := by
  classical
  unfold dampPoint
  by_cases h0 : nu = 0
  · rw [if_pos h0, if_neg (fun h => h.1 h0)]
  · rw [if_neg h0]
    have key : ∀ (cs : List Nat), cs.Nodup → ∀ u : Data, cs.foldl (fun u c =>
        if P.located c = here then loop 10 (fun _ u => cycle P dt nu ⟨.state c, iA, iB, k⟩ u) u else u) u x =
        if (∃ c, x.v = .state c ∧ c ∈ cs ∧ P.located c = here) ∧ x.iA = iA ∧ x.iB = iB ∧ x.k = k then
          tenfold dt nu (P.ref x) (u x) else u x := by
      intro cs
      induction cs with
      | nil => intro _ u; simp
      | cons d ds ih =>
        intro hn u
        obtain ⟨hd, hds⟩ := List.nodup_cons.1 hn
        rw [List.foldl_cons, ih hds]
        have hstep : (if P.located d = here then loop 10 (fun _ u => cycle P dt nu ⟨.state d, iA, iB, k⟩ u) u else u) x =
            if (x.v = .state d ∧ P.located d = here) ∧ x.iA = iA ∧ x.iB = iB ∧ x.k = k then
              tenfold dt nu (P.ref x) (u x) else u x := by
          by_cases hl : P.located d = here
          · rw [if_pos hl, cycles]
            by_cases hx : x = ⟨.state d, iA, iB, k⟩
            · subst hx; simp [hl]
            · rw [if_neg hx, if_neg]
              rintro ⟨⟨h1, -⟩, h2, h3, h4⟩
              apply hx
              cases x
              simp_all
          · rw [if_neg hl, if_neg (fun h => hl h.1.2)]
        rw [hstep]
        by_cases hp : x.iA = iA ∧ x.iB = iB ∧ x.k = k
        · by_cases h1 : ∃ c, x.v = .state c ∧ c ∈ ds ∧ P.located c = here
          · have h2 : ¬ (x.v = .state d ∧ P.located d = here) := by
              rintro ⟨h2, -⟩
              obtain ⟨c, h3, h4, -⟩ := h1
              rw [h2] at h3
              injection h3 with h3
              subst h3
              exact hd h4
            obtain ⟨c, h3, h4, h5⟩ := h1
            rw [if_pos ⟨⟨c, h3, h4, h5⟩, hp⟩, if_neg (fun h => h2 h.1),
              if_pos ⟨⟨c, h3, List.mem_cons_of_mem _ h4, h5⟩, hp⟩]
          · rw [if_neg (fun h => h1 h.1)]
            by_cases h2 : x.v = .state d ∧ P.located d = here
            · rw [if_pos ⟨h2, hp⟩, if_pos ⟨⟨d, h2.1, List.mem_cons_self, h2.2⟩, hp⟩]
            · rw [if_neg (fun h => h2 h.1), if_neg]
              rintro ⟨⟨c, h3, h4, h5⟩, -⟩
              rcases List.mem_cons.1 h4 with rfl | h4
              · exact h2 ⟨h3, h5⟩
              · exact h1 ⟨c, h3, h4, h5⟩
        · rw [if_neg (fun h => hp h.2), if_neg (fun h => hp h.2), if_neg (fun h => hp h.2)]
    rw [key _ (effective_nodup P.eq P.xz)]
    refine if_congr ?_ rfl rfl
    constructor
    · rintro ⟨⟨c, h1, h2, h3⟩, h4⟩
      exact ⟨h0, ⟨c, h1, (effective_iff _ _ _).1 h2, h3⟩, h4⟩
    · rintro ⟨-, ⟨c, h1, h2, h3⟩, h4⟩
      exact ⟨⟨c, h1, (effective_iff _ _ _).2 h2, h3⟩, h4⟩

open Classical in
/-- One pass over the levels or interfaces of a column. -/
theorem column_at (P : Sponge) (here : Located) (dt : ℝ) (s : Nat → ℝ) (n iA iB : Nat) (u : Data) (x : Cell) :
    loop n (fun k u => dampPoint P here dt (s k) iA iB k u) u x =
      if (∃ c, x.v = .state c ∧ Damped P.eq P.xz c ∧ P.located c = here) ∧ x.iA = iA ∧ x.iB = iB ∧ x.k < n ∧ s x.k ≠ 0
        then tenfold dt (s x.k) (P.ref x) (u x) else u x := by
  rw [loop_pointwise n _ (fun k x y => if k = x.k then
    if (∃ c, x.v = .state c ∧ Damped P.eq P.xz c ∧ P.located c = here) ∧ x.iA = iA ∧ x.iB = iB ∧ s x.k ≠ 0
      then tenfold dt (s x.k) (P.ref x) y else y else y)]
  · rw [loop_single]
    by_cases h1 : x.k < n
    · rw [if_pos h1]
      exact if_congr (by tauto) rfl rfl
    · rw [if_neg h1, if_neg (fun h => h1 h.2.2.2.1)]
  · intro k u x
    rw [damp_at]
    by_cases h1 : k = x.k
    · subst h1
      rw [if_pos rfl]
      exact if_congr (by tauto) rfl rfl
    · rw [if_neg h1, if_neg (fun h => h1 h.2.2.2.2.symm)]

/-- **Friction, point by point.** -/
theorem rayleigh_at (P : Sponge) (dt : ℝ) (u : Data) (x : Cell) :
    applyRayleigh P dt u x = tenfold dt (strength P x) (P.ref x) (u x) := by
  classical
  have z : ∀ r y, tenfold dt 0 r y = y := by intro r y; simp [tenfold]
  let φ : ℝ → ℝ := fun y =>
    match x.v with
    | .tracer _ => y
    | .state c => if Damped P.eq P.xz c then
        match P.located c with
        | .node => if x.k < P.S.levels then tenfold dt (P.strengthNode x.iA x.iB x.k) (P.ref x) y else y
        | .redge => if x.k < P.S.levels + 1 then tenfold dt (P.strengthREdge x.iA x.iB x.k) (P.ref x) y else y
        | .other => y
      else y
  have body : ∀ i j (u : Data),
      loop (P.S.levels + 1) (fun k u => dampPoint P .redge dt (P.strengthREdge (P.S.halo + i) (P.S.halo + j) k)
        (P.S.halo + i) (P.S.halo + j) k u)
      (loop P.S.levels (fun k u => dampPoint P .node dt (P.strengthNode (P.S.halo + i) (P.S.halo + j) k)
        (P.S.halo + i) (P.S.halo + j) k u) u) x =
      if P.S.halo + i = x.iA then if P.S.halo + j = x.iB then φ (u x) else u x else u x := by
    intro i j u
    rw [column_at P .redge dt (fun k => P.strengthREdge (P.S.halo + i) (P.S.halo + j) k),
      column_at P .node dt (fun k => P.strengthNode (P.S.halo + i) (P.S.halo + j) k)]
    by_cases hA : P.S.halo + i = x.iA
    · by_cases hB : P.S.halo + j = x.iB
      · rw [if_pos hA, if_pos hB, hA, hB]
        simp only [φ]
        cases hv : x.v with
        | tracer c => simp
        | state c =>
          by_cases hd : Damped P.eq P.xz c
          · cases hl : P.located c with
            | node =>
              by_cases hk : x.k < P.S.levels
              · by_cases h0 : P.strengthNode x.iA x.iB x.k = 0
                · simp [hd, hl, hk, h0, z]
                · simp [hd, hl, hk, h0]
              · simp [hd, hl, hk]
            | redge =>
              by_cases hk : x.k < P.S.levels + 1
              · by_cases h0 : P.strengthREdge x.iA x.iB x.k = 0
                · simp [hd, hl, hk, h0, z]
                · simp [hd, hl, hk, h0]
              · simp [hd, hl, hk]
            | other => simp [hd, hl]
          · simp [hd]
      · rw [if_neg (fun h => hB h.2.2.1.symm), if_neg (fun h => hB h.2.2.1.symm), if_neg hB, if_pos hA]
    · rw [if_neg (fun h => hA h.2.1.symm), if_neg (fun h => hA h.2.1.symm), if_neg hA]
  -- the loops over the interior, at the point `x` only
  have at_x : ∀ (n : Nat) (f : Nat → Data → Data) (g : Nat → ℝ → ℝ) (u : Data), (∀ i u, f i u x = g i (u x)) →
      loop n f u x = loop n g (u x) := by
    intro n f g u h
    induction n with
    | zero => rfl
    | succ n ih => rw [loop_succ, loop_succ, h, ih]
  have hoff : ∀ (n i0 : Nat) (g : ℝ → ℝ) (y : ℝ), loop n (fun i y => if P.S.halo + i = i0 then g y else y) y =
      if P.S.halo ≤ i0 ∧ i0 < P.S.halo + n then g y else y := by
    intro n i0 g y
    by_cases h : P.S.halo ≤ i0
    · have e : (fun (i : Nat) (y : ℝ) => if P.S.halo + i = i0 then g y else y) =
          fun i y => if i = i0 - P.S.halo then g y else y := by
        funext i y
        exact if_congr (by omega) rfl rfl
      rw [e, loop_single]
      exact if_congr (by omega) rfl rfl
    · rw [if_neg (fun h' => h h'.1)]
      induction n with
      | zero => rfl
      | succ n ih => rw [loop_succ, ih, if_neg (by omega)]
  unfold applyRayleigh
  rw [at_x _ _ (fun i y => if P.S.halo + i = x.iA then
    (if P.S.halo ≤ x.iB ∧ x.iB < P.S.halo + P.S.elemB * P.S.order then φ y else y) else y)]
  · rw [hoff]
    have hint : Interior P.S x.iA x.iB ↔ (P.S.halo ≤ x.iA ∧ x.iA < P.S.halo + P.S.elemA * P.S.order) ∧
        (P.S.halo ≤ x.iB ∧ x.iB < P.S.halo + P.S.elemB * P.S.order) := by
      unfold Interior; tauto
    by_cases hI : Interior P.S x.iA x.iB
    · rw [if_pos (hint.1 hI).1, if_pos (hint.1 hI).2]
      simp only [φ, strength]
      cases hv : x.v with
      | tracer c => simp [z]
      | state c =>
        by_cases hd : Damped P.eq P.xz c
        · simp only [hd, hI, and_self, if_true]
          cases hl : P.located c with
          | node => by_cases hk : x.k < P.S.levels <;> simp [hk, z]
          | redge => by_cases hk : x.k < P.S.levels + 1 <;> simp [hk, z]
          | other => simp [z]
        · simp [hd, z]
    · have e : strength P x = 0 := by
        unfold strength
        cases x.v with
        | tracer c => rfl
        | state c => simp only; rw [if_neg (fun h => hI h.2)]
      rw [e, z]
      by_cases h1 : P.S.halo ≤ x.iA ∧ x.iA < P.S.halo + P.S.elemA * P.S.order
      · rw [if_pos h1, if_neg (fun h => hI (hint.2 ⟨h1, h⟩))]
      · rw [if_neg h1]
  · intro i u
    rw [at_x _ _ (fun j y => if P.S.halo + j = x.iB then (if P.S.halo + i = x.iA then φ y else y) else y)]
    · rw [hoff]
      by_cases h1 : P.S.halo + i = x.iA <;> simp [h1]
    · intro j u
      rw [body]
      by_cases h1 : P.S.halo + i = x.iA <;> by_cases h2 : P.S.halo + j = x.iB <;> simp [h1, h2]

/-! ### Properties -/

/-- **C77 (law).**  Friction moves every variable towards the reference state by the factor
`(1 + dt ν / 10) ^ -10`, with `ν` the strength at that point; where the strength is zero, nothing changes. -/
theorem C77_law (P : Sponge) (dt : ℝ) (u : Data) (x : Cell) (h : 1 + dt * strength P x / 10 ≠ 0) :
    (applyRayleigh P dt u x - P.ref x) * (1 + dt * strength P x / 10) ^ 10 = u x - P.ref x := by
  rw [rayleigh_at, tenfold, show (1 : ℝ) + 1 / 10 * dt * strength P x = 1 + dt * strength P x / 10 by ring, one_div,
    inv_pow, add_sub_cancel_left, mul_right_comm, inv_mul_cancel₀ (pow_ne_zero 10 h), one_mul]

/-- **C77 (between).**  For any time step, however long, the result lies between the old value and the reference. -/
theorem C77_between (P : Sponge) (dt : ℝ) (hdt : 0 ≤ dt) (hs : ∀ x, 0 ≤ strength P x) (u : Data) (x : Cell) :
    min (u x) (P.ref x) ≤ applyRayleigh P dt u x ∧ applyRayleigh P dt u x ≤ max (u x) (P.ref x) := by
  rw [rayleigh_at]
  unfold tenfold
  have h1 : 1 ≤ 1 + 1 / 10 * dt * strength P x := by
    have := mul_nonneg hdt (hs x)
    linarith
  have q0 : 0 ≤ (1 / (1 + 1 / 10 * dt * strength P x)) ^ 10 := pow_nonneg (by positivity) 10
  have q1 : (1 / (1 + 1 / 10 * dt * strength P x)) ^ 10 ≤ 1 :=
    pow_le_one₀ (by positivity) ((div_le_one (by linarith)).2 h1)
  generalize (1 / (1 + 1 / 10 * dt * strength P x)) ^ 10 = q at q0 q1
  rcases le_total (u x) (P.ref x) with h | h
  · rw [min_eq_left h, max_eq_right h]
    constructor <;> nlinarith
  · rw [min_eq_right h, max_eq_left h]
    constructor <;> nlinarith

/-- **C77 (not too much).**  The distance from the reference falls at most as fast as in the exact solution: it is at
least `exp (-dt ν)` times the old distance. -/
theorem C77_exact (P : Sponge) (dt : ℝ) (hdt : 0 ≤ dt) (hs : ∀ x, 0 ≤ strength P x) (u : Data) (x : Cell) :
    Real.exp (-(dt * strength P x)) * |u x - P.ref x| ≤ |applyRayleigh P dt u x - P.ref x| := by
  have h1 : 0 < 1 + dt * strength P x / 10 := by
    have := mul_nonneg hdt (hs x)
    linarith
  have law := C77_law P dt u x (ne_of_gt h1)
  have he : (1 + dt * strength P x / 10) ^ 10 ≤ Real.exp (dt * strength P x) := by
    have h2 : 1 + dt * strength P x / 10 ≤ Real.exp (dt * strength P x / 10) := by
      have := Real.add_one_le_exp (dt * strength P x / 10)
      linarith
    calc (1 + dt * strength P x / 10) ^ 10 ≤ Real.exp (dt * strength P x / 10) ^ 10 := pow_le_pow_left₀ h1.le h2 10
      _ = Real.exp (dt * strength P x) := by
        rw [← Real.exp_nat_mul]
        congr 1
        push_cast
        ring
  rw [← law, abs_mul, abs_of_pos (pow_pos h1 10), Real.exp_neg]
  have hpos := Real.exp_pos (dt * strength P x)
  rw [← mul_assoc, mul_comm (Real.exp _)⁻¹, mul_assoc]
  refine mul_le_of_le_one_right (abs_nonneg _) ?_
  rw [inv_mul_le_iff₀ hpos, mul_one]
  exact he

/-- **C77 (rest).**  The reference state itself is left as it is, and two states come no farther apart. -/
theorem C77_reference (P : Sponge) (dt : ℝ) (x : Cell) : applyRayleigh P dt P.ref x = P.ref x := by
  rw [rayleigh_at, tenfold]
  ring

theorem C77_contracts (P : Sponge) (dt : ℝ) (hdt : 0 ≤ dt) (hs : ∀ x, 0 ≤ strength P x) (u u' : Data) (x : Cell) :
    |applyRayleigh P dt u x - applyRayleigh P dt u' x| ≤ |u x - u' x| := by
  rw [rayleigh_at, rayleigh_at]
  unfold tenfold
  have h1 : 1 ≤ 1 + 1 / 10 * dt * strength P x := by
    have := mul_nonneg hdt (hs x)
    linarith
  have q0 : 0 ≤ (1 / (1 + 1 / 10 * dt * strength P x)) ^ 10 := pow_nonneg (by positivity) 10
  have q1 : (1 / (1 + 1 / 10 * dt * strength P x)) ^ 10 ≤ 1 :=
    pow_le_one₀ (by positivity) ((div_le_one (by linarith)).2 h1)
  generalize (1 / (1 + 1 / 10 * dt * strength P x)) ^ 10 = q at q0 q1
  rw [show P.ref x + q * (u x - P.ref x) - (P.ref x + q * (u' x - P.ref x)) = q * (u x - u' x) by ring, abs_mul,
    abs_of_nonneg q0]
  exact mul_le_of_le_one_left (abs_nonneg _) q1

/-- **C77 (what is left alone).**  Tracers, halo points, density (and in a vertical slice the second velocity) of the
nonhydrostatic equations, and points at which the strength given is zero, are left as they are. -/
theorem C77_untouched (P : Sponge) (dt : ℝ) (u : Data) (x : Cell)
    (h : (∃ c, x.v = .tracer c) ∨ ¬ Interior P.S x.iA x.iB ∨
      (P.eq = .nonhydrostatic ∧ (x.v = .state 4 ∨ (P.xz = true ∧ x.v = .state 1))) ∨
      (P.strengthNode x.iA x.iB x.k = 0 ∧ P.strengthREdge x.iA x.iB x.k = 0)) : applyRayleigh P dt u x = u x := by
  have e : strength P x = 0 := by
    classical
    unfold strength
    cases hv : x.v with
    | tracer c => rfl
    | state c =>
      simp only
      split
      · rename_i hc
        rcases h with ⟨d, hd⟩ | h | ⟨h1, h2⟩ | ⟨h1, h2⟩
        · rw [hv] at hd; cases hd
        · exact absurd hc.2 h
        · have := hc.1.2 h1
          rw [hv] at h2
          rcases h2 with h2 | ⟨h3, h2⟩
          · injection h2 with h2
            exact absurd h2 this.1
          · injection h2 with h2
            exact absurd h2 (this.2 h3)
        · cases P.located c <;> simp [h1, h2]
      · rfl
  rw [rayleigh_at, e, tenfold]
  simp

/-! ### A case that meets the hypotheses -/

/-- The sample patch with a sponge at the top interface only, at rest in the reference state. -/
noncomputable def sampleSponge : Sponge where
  S := sampleGeometry.S
  eq := .nonhydrostatic
  xz := false
  located := sampleMedium.located
  ref := fun _ => 0
  strengthNode := fun _ _ _ => 0
  strengthREdge := fun _ _ k => if k = 1 then 3 else 0

theorem sample_strength (x : Cell) : 0 ≤ strength sampleSponge x := by
  classical
  unfold strength
  cases x.v with
  | tracer c => exact le_refl _
  | state c =>
    simp only
    split
    · cases sampleSponge.located c
      · by_cases h : x.k < sampleSponge.S.levels
        · simp only [h, if_true]; exact le_refl _
        · simp only [h, if_false]; exact le_refl _
      · by_cases h : x.k < sampleSponge.S.levels + 1
        · rw [if_pos h]
          simp only [sampleSponge]
          by_cases h1 : x.k = 1 <;> simp [h1]
        · simp only [h, if_false]; exact le_refl _
      · exact le_refl _
    · exact le_refl _

/-- The vertical velocity at the top of the example is damped. -/
example : strength sampleSponge ⟨.state 3, 1, 1, 1⟩ = 3 := by
  classical
  have hd : Damped Equations.nonhydrostatic false 3 := by simp [Damped, Equations.components]
  have hi : Interior sampleSponge.S 1 1 := by simp [Interior, sampleSponge, sampleGeometry]
  have hl : sampleSponge.located 3 = .redge := rfl
  simp only [strength]
  rw [if_pos ⟨hd, hi⟩, hl]
  norm_num [sampleSponge, sampleGeometry]

example (u : Data) (x : Cell) := C77_between sampleSponge 100 (by norm_num) sample_strength u x

end Verif.Horiz
