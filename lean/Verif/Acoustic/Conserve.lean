import Verif.Acoustic.Lemmas

/-!
# C120: the split-explicit and high-speed dynamics conserve mass and heat
-/

namespace Verif.Acoustic

open Verif.Horiz

section

variable (G : Grid) (area : Fld) (h : Fits G area)

theorem total_flux (φ ψ F base : Fld) (a b c : ℝ) (h : Fits G area)
    (h0 : ∀ e i j, e < G.elements → i < G.order → j < G.order → F e i j 0 = 0)
    (hn : ∀ e i j, e < G.elements → i < G.order → j < G.order → F e i j G.levels = 0) :
    total G area (fun e i j k => a * base e i j k + (b * div G φ ψ e i j k + c * dz G F e i j k)) =
      a * total G area base := by
  rw [total_add G area (fun e i j k => a * base e i j k)
      (fun e i j k => b * div G φ ψ e i j k + c * dz G F e i j k),
    total_add G area (fun e i j k => b * div G φ ψ e i j k) (fun e i j k => c * dz G F e i j k), total_mul, total_mul,
    total_mul, total_dz G area F h h0 hn]
  have := total_div G area φ ψ h
  rw [show total G area (fun e i j k => div G φ ψ e i j k) = 0 from this]
  ring

include h in
theorem tendR_total (s : State) : total G area (tendR G s) = 0 := by
  have := total_flux G area (massA G s) (massB G s) (sDot G s) (fun _ _ _ _ => 0) 1 (-1) (-1) h
    (fun e i j _ _ _ => inner_zero G _) (fun e i j _ _ _ => inner_top G _)
  calc total G area (tendR G s) = _ := by
        congr 1
        funext e i j k
        unfold tendR
        ring
    _ = _ := this
    _ = 0 := by rw [one_mul]; simp [total]

include h in
theorem tendP_total (s : State) : total G area (tendP G s) = 0 := by
  have := total_flux G area (heatA G s) (heatB G s) (sDotTheta G s) (fun _ _ _ _ => 0) 1 (-1) (-1) h
    (fun e i j _ _ _ => inner_zero G _) (fun e i j _ _ _ => inner_top G _)
  calc total G area (tendP G s) = _ := by
        congr 1
        funext e i j k
        unfold tendP
        ring
    _ = _ := this
    _ = 0 := by rw [one_mul]; simp [total]

include h in
theorem firstLoop_total (solver : Solver) (hs : Exact G.levels solver) (hn : 0 < G.levels) (s T old a : State) (dt : ℝ)
    (ha : firstLoop G solver s T dt old = some a) (hr : total G area T.r = 0) (hp : total G area T.p = 0) :
    total G area a.r = 0 ∧ total G area a.p = 0 := by
  unfold firstLoop at ha
  obtain ⟨X, hX, rfl⟩ := Option.map_eq_some_iff.1 ha
  have ends := solveAll_ends G solver hs hn _ _ _ _ X hX (fun _ _ _ => inner_zero G _) (fun _ _ _ => inner_top G _)
  constructor
  · show total G area (mean G _) = 0
    rw [total_mean G area _ h]
    calc _ = _ := by
          congr 1
          funext e i j k
          unfold firstMass
          exact (show ∀ a b c d : ℝ, dt * (-a + b) + dt * (-0.5 * c * d) =
            dt * b + (-dt * a + (dt * (-0.5) * c) * d) from fun a b c d => by ring) _ _ _ _
      _ = dt * total G area T.r := total_flux G area _ _ X T.r _ _ _ h (fun e i j he hi hj => (ends e i j he hi hj).1)
          (fun e i j he hi hj => (ends e i j he hi hj).2)
      _ = 0 := by rw [hr, mul_zero]
  · show total G area (mean G _) = 0
    rw [total_mean G area _ h]
    calc _ = _ := by
          congr 1
          funext e i j k
          unfold firstHeat
          exact (show ∀ a b c d : ℝ, dt * (-a + b) + dt * (-0.5 * c * d) =
            dt * b + (-dt * a + (dt * (-0.5) * c) * d) from fun a b c d => by ring) _ _ _ _
      _ = dt * total G area T.p := total_flux G area _ _ (fun e i j k => X e i j k * thetaEdge G s e i j k) T.p _ _ _ h
          (fun e i j he hi hj => by rw [(ends e i j he hi hj).1, zero_mul])
          (fun e i j he hi hj => by rw [(ends e i j he hi hj).2, zero_mul])
      _ = 0 := by rw [hp, mul_zero]

theorem total_three (φ ψ F H K base more : Fld) (a b c d l m : ℝ) (h : Fits G area)
    (hF : ∀ e i j, e < G.elements → i < G.order → j < G.order → F e i j 0 = 0 ∧ F e i j G.levels = 0)
    (hH : ∀ e i j, e < G.elements → i < G.order → j < G.order → H e i j 0 = 0 ∧ H e i j G.levels = 0)
    (hK : ∀ e i j, e < G.elements → i < G.order → j < G.order → K e i j 0 = 0 ∧ K e i j G.levels = 0) :
    total G area (fun e i j k => (a * base e i j k + (b * div G φ ψ e i j k + c * dz G F e i j k)) +
      ((d * more e i j k + (0 * div G φ ψ e i j k + l * dz G H e i j k)) +
        (0 * base e i j k + (0 * div G φ ψ e i j k + m * dz G K e i j k)))) =
      a * total G area base + d * total G area more := by
  rw [total_add G area (fun e i j k => a * base e i j k + (b * div G φ ψ e i j k + c * dz G F e i j k))
    (fun e i j k => (d * more e i j k + (0 * div G φ ψ e i j k + l * dz G H e i j k)) +
        (0 * base e i j k + (0 * div G φ ψ e i j k + m * dz G K e i j k))),
    total_add G area (fun e i j k => d * more e i j k + (0 * div G φ ψ e i j k + l * dz G H e i j k))
    (fun e i j k => 0 * base e i j k + (0 * div G φ ψ e i j k + m * dz G K e i j k)),
    total_flux G area φ ψ F base a b c h (fun e i j he hi hj => (hF e i j he hi hj).1)
      (fun e i j he hi hj => (hF e i j he hi hj).2),
    total_flux G area φ ψ H more d 0 l h (fun e i j he hi hj => (hH e i j he hi hj).1)
      (fun e i j he hi hj => (hH e i j he hi hj).2),
    total_flux G area φ ψ K base 0 0 m h (fun e i j he hi hj => (hK e i j he hi hj).1)
      (fun e i j he hi hj => (hK e i j he hi hj).2)]
  ring

include h in
theorem nextLoop_total (solver : Solver) (hs : Exact G.levels solver) (hn : 0 < G.levels) (s T a0 a1 old a : State)
    (dt : ℝ) (ha : nextLoop G solver s T dt a0 a1 old = some a) (hr : total G area T.r = 0)
    (hp : total G area T.p = 0) :
    total G area a.r = total G area a1.r ∧ total G area a.p = total G area a1.p := by
  unfold nextLoop at ha
  obtain ⟨X, hX, rfl⟩ := Option.map_eq_some_iff.1 ha
  have ends := solveAll_ends G solver hs hn _ _ _ _ X hX (fun _ _ _ => inner_zero G _) (fun _ _ _ => inner_top G _)
  constructor
  · show total G area (mean G _) = _
    rw [total_mean G area _ h]
    calc _ = _ := by
          congr 1
          funext e i j k
          unfold nextMass
          exact (show ∀ A D c f c' f' t x y : ℝ, A + -dt * (D + 0.5 * c * f + 0.5 * c' * f' - t) + dt * (-0.5 * x * y) =
              (1 * A + (-dt * D + (-dt * (0.5 * c)) * f)) + ((dt * t + (0 * D + (-dt * (0.5 * c')) * f')) +
                (0 * A + (0 * D + (dt * (-0.5 * x)) * y))) from fun A D c f c' f' t x y => by ring) _ _ _ _ _ _ _ _ _
      _ = 1 * total G area a1.r + dt * total G area T.r := total_three G area _ _ (zFlux1 G a1) (zFlux2 G a1) X _ _ _
          _ _ _ _ _ h (fun e i j _ _ _ => ⟨inner_zero G _, inner_top G _⟩)
          (fun e i j _ _ _ => ⟨inner_zero G _, inner_top G _⟩) (fun e i j he hi hj => ends e i j he hi hj)
      _ = _ := by rw [hr]; ring
  · show total G area (mean G _) = _
    rw [total_mean G area _ h]
    calc _ = _ := by
          congr 1
          funext e i j k
          unfold nextHeat
          exact (show ∀ A D c f c' f' t x y : ℝ, A + -dt * (D + 0.5 * c * f + 0.5 * c' * f' - t) + dt * (-0.5 * x * y) =
              (1 * A + (-dt * D + (-dt * (0.5 * c)) * f)) + ((dt * t + (0 * D + (-dt * (0.5 * c')) * f')) +
                (0 * A + (0 * D + (dt * (-0.5 * x)) * y))) from fun A D c f c' f' t x y => by ring) _ _ _ _ _ _ _ _ _
      _ = 1 * total G area a1.p + dt * total G area T.p := total_three G area _ _
          (fun e i j k => zFlux1 G a1 e i j k * thetaEdge G s e i j k)
          (fun e i j k => zFlux2 G a1 e i j k * thetaEdge G s e i j k)
          (fun e i j k => X e i j k * thetaEdge G s e i j k) _ _ _ _ _ _ _ _ h
          (fun e i j _ _ _ => ⟨by rw [show zFlux1 G a1 e i j 0 = 0 from inner_zero G _, zero_mul],
            by rw [show zFlux1 G a1 e i j G.levels = 0 from inner_top G _, zero_mul]⟩)
          (fun e i j _ _ _ => ⟨by rw [show zFlux2 G a1 e i j 0 = 0 from inner_zero G _, zero_mul],
            by rw [show zFlux2 G a1 e i j G.levels = 0 from inner_top G _, zero_mul]⟩)
          (fun e i j he hi hj => ⟨by rw [(ends e i j he hi hj).1, zero_mul], by rw [(ends e i j he hi hj).2, zero_mul]⟩)
      _ = _ := by rw [hp]; ring

end

theorem putSlot_same (st : Store) (n : Nat) (s : State) : putSlot st n s n = s := if_pos rfl

theorem putSlot_other (st : Store) (n m : Nat) (s : State) (h : m ≠ n) : putSlot st n s m = st m := if_neg h

/-- What one call of the split-explicit step consists of. -/
theorem stepExplicit_parts (G : Grid) (solver : Solver) (nh lo : Bool) (base iI iU : Nat) (dt : ℝ) (st st' : Store)
    (hI : iI < base) (hU : iU < base) (h : stepExplicit G solver nh lo base iI iU dt st = some st') :
    iI ≠ iU ∧ nh = true ∧ lo = true ∧ ∃ a b c,
      firstLoop G solver (st iI) (tendencies G (st iI) (st base)) (dt / 3) (zero (st (base + 1))) = some a ∧
      nextLoop G solver (st iI) (tendencies G (st iI) (st base)) (dt / 3) (zero (st (base + 3))) a
        (zero (st (base + 2))) = some b ∧
      nextLoop G solver (st iI) (tendencies G (st iI) (st base)) (dt / 3) a b (zero (st (base + 3))) = some c ∧
      st' iU = addUp G (st iU) c ∧
      ∀ m, m < base → m ≠ iU → st' m = st m := by
  unfold stepExplicit at h
  by_cases hd : iI = iU
  · rw [if_pos hd] at h
    exact absurd h (by simp)
  rw [if_neg hd] at h
  cases nh
  · exact absurd h (by simp)
  cases lo
  · exact absurd h (by simp)
  refine ⟨hd, rfl, rfl, ?_⟩
  simp only [Bool.not_true, Bool.false_eq_true, if_false, Option.bind_eq_bind, pure_bind,
    Option.bind_eq_some_iff] at h
  obtain ⟨a, ha, b, hb, c, hc, hst⟩ := h
  have e1 : iI ≠ base := by omega
  have e2 : iI ≠ base + 1 := by omega
  have e3 : iI ≠ base + 2 := by omega
  have e4 : iI ≠ base + 3 := by omega
  have u1 : iU ≠ base := by omega
  have u2 : iU ≠ base + 1 := by omega
  have u3 : iU ≠ base + 2 := by omega
  have u4 : iU ≠ base + 3 := by omega
  refine ⟨a, b, c, ?_, ?_, ?_, ?_, ?_⟩
  · simpa [putSlot, e1, e2, e3, e4] using ha
  · simpa [putSlot, e1, e2, e3, e4] using hb
  · simpa [putSlot, e1, e2, e3, e4] using hc
  · have : st' = _ := (Option.some.inj hst).symm
    rw [this]
    simp [putSlot, u1, u2, u3, u4]
  · intro m hm hmU
    have : st' = _ := (Option.some.inj hst).symm
    rw [this]
    have m1 : m ≠ base := by omega
    have m2 : m ≠ base + 1 := by omega
    have m3 : m ≠ base + 2 := by omega
    have m4 : m ≠ base + 3 := by omega
    simp [putSlot, m1, m2, m3, m4, hmU]

/-- A whole split-explicit step leaves the integrals of density and of density times potential temperature over the
updated instance as they were, for every state, grid and step. -/
theorem C120_split (G : Grid) (area : Fld) (h : Fits G area) (hn : 0 < G.levels) (solver : Solver)
    (hs : Exact G.levels solver) (nh lo : Bool) (base iI iU : Nat) (hI : iI < base) (hU : iU < base) (dt : ℝ)
    (st st' : Store) (hst : stepExplicit G solver nh lo base iI iU dt st = some st') :
    total G area (st' iU).r = total G area (st iU).r ∧ total G area (st' iU).p = total G area (st iU).p := by
  obtain ⟨_, _, _, a, b, c, ha, hb, hc, hU', _⟩ := stepExplicit_parts G solver nh lo base iI iU dt st st' hI hU hst
  have hr : total G area (tendencies G (st iI) (st base)).r = 0 := by
    show total G area (mean G _) = 0
    rw [total_mean G area _ h, tendR_total G area h]
  have hp : total G area (tendencies G (st iI) (st base)).p = 0 := by
    show total G area (mean G _) = 0
    rw [total_mean G area _ h, tendP_total G area h]
  have A := firstLoop_total G area h solver hs hn _ _ _ _ _ ha hr hp
  have B := nextLoop_total G area h solver hs hn _ _ _ _ _ _ _ hb hr hp
  have C := nextLoop_total G area h solver hs hn _ _ _ _ _ _ _ hc hr hp
  rw [hU']
  constructor
  · rw [show (addUp G (st iU) c).r = fun e i j k => (st iU).r e i j k + c.r e i j k from rfl, total_add, C.1, B.1, A.1,
      add_zero]
  · rw [show (addUp G (st iU) c).p = fun e i j k => (st iU).p e i j k + c.p e i j k from rfl, total_add, C.2, B.2, A.2,
      add_zero]

theorem total_combine (G : Grid) (area : Fld) (l : List (ℝ × Nat)) (st : Store) (part : State → Fld) :
    total G area (fun e i j k => (l.map fun x => x.1 * part (st x.2) e i j k).sum) =
      (l.map fun x => x.1 * total G area (part (st x.2))).sum := by
  induction l with
  | nil => simp [total]
  | cons x l ih =>
    simp only [List.map_cons, List.sum_cons]
    rw [total_add G area (fun e i j k => x.1 * part (st x.2) e i j k)
      (fun e i j k => (l.map fun x => x.1 * part (st x.2) e i j k).sum), total_mul, ih]

theorem slab_combine (G : Grid) (area : Fld) (l : List (ℝ × Nat)) (st : Store) (part : State → Fld) (e k : Nat) :
    slab G area (fun e i j k => (l.map fun x => x.1 * part (st x.2) e i j k).sum) e k =
      (l.map fun x => x.1 * slab G area (part (st x.2)) e k).sum := by
  induction l with
  | nil => simp [slab]
  | cons x l ih =>
    simp only [List.map_cons, List.sum_cons]
    rw [slab_add G area (fun e i j k => x.1 * part (st x.2) e i j k)
      (fun e i j k => (l.map fun x => x.1 * part (st x.2) e i j k).sum), slab_mul, ih]

/-- The explicit part of the high-speed dynamics: over each layer of each element the integrals of density and of
density times potential temperature are the combination of those of the instances combined. -/
theorem C120_explicit (G : Grid) (area : Fld) (h : Fits G area) (coeff : List ℝ) (inst : List Nat) (iA iU : Nat)
    (dt : ℝ) (st st' : Store) (hst : explicitCombine G coeff inst iA iU dt st = some st') (e k : Nat)
    (he : e < G.elements) (hk : k < G.levels) :
    slab G area (st' iU).r e k = ((coeff.zip inst).map fun x => x.1 * slab G area (st x.2).r e k).sum ∧
      slab G area (st' iU).p e k = ((coeff.zip inst).map fun x => x.1 * slab G area (st x.2).p e k).sum := by
  unfold explicitCombine at hst
  by_cases hc : combinable coeff inst iU = true
  swap
  · rw [if_pos (by simpa using hc)] at hst
    exact absurd hst (by simp)
  rw [if_neg (by simp [hc])] at hst
  have : st' iU = _ := congrFun (Option.some.inj hst).symm iU
  rw [this, putSlot_same]
  have go : ∀ (part : State → Fld) (φ ψ : Fld),
      slab G area (fun e i j k => combine coeff inst st part e i j k + -dt * div G φ ψ e i j k) e k =
        ((coeff.zip inst).map fun x => x.1 * slab G area (part (st x.2)) e k).sum := by
    intro part φ ψ
    rw [slab_add G area (fun e i j k => combine coeff inst st part e i j k) (fun e i j k => -dt * div G φ ψ e i j k),
      slab_mul, show slab G area (fun e i j k => div G φ ψ e i j k) e k = 0 from slab_div G area φ ψ h e k he hk,
      mul_zero, add_zero, ← slab_combine]
    congr 1
    funext e i j k
    exact combine_sum coeff inst iU hc st part e i j k
  exact ⟨go State.r _ _, go State.p _ _⟩

/-- The implicit part of the high-speed dynamics, with the direct stiffness summation at its end. -/
theorem C120_implicit (G : Grid) (area : Fld) (h : Fits G area) (hn : 0 < G.levels) (solver : Solver)
    (hs : Exact G.levels solver) (coeff : List ℝ) (inst : List Nat) (iA iU : Nat) (dt : ℝ) (st st' : Store)
    (hst : implicitCombine G solver coeff inst iA iU dt st = some st') :
    total G area (st' iU).r = ((coeff.zip inst).map fun x => x.1 * total G area (st x.2).r).sum ∧
      total G area (st' iU).p = ((coeff.zip inst).map fun x => x.1 * total G area (st x.2).p).sum := by
  unfold implicitCombine implicitCore at hst
  obtain ⟨s, hs', rfl⟩ := Option.map_eq_some_iff.1 hst
  by_cases hc : combinable coeff inst iU = true
  swap
  · rw [if_pos (by simpa using hc)] at hs'
    exact absurd hs' (by simp)
  rw [if_neg (by simp [hc])] at hs'
  obtain ⟨X, hX, rfl⟩ := Option.map_eq_some_iff.1 hs'
  have ends := solveAll_ends G solver hs hn _ _ _ _ X hX (fun _ _ _ => inner_zero G _) (fun _ _ _ => inner_top G _)
  rw [putSlot_same]
  have go : ∀ (part : State → Fld) (F : Fld),
      (∀ e i j, e < G.elements → i < G.order → j < G.order → F e i j 0 = 0) →
      (∀ e i j, e < G.elements → i < G.order → j < G.order → F e i j G.levels = 0) →
      total G area (mean G fun e i j k => combine coeff inst st part e i j k + -dt * dz G F e i j k) =
        ((coeff.zip inst).map fun x => x.1 * total G area (part (st x.2))).sum := by
    intro part F h0 hl
    rw [total_mean G area _ h,
      total_add G area (fun e i j k => combine coeff inst st part e i j k) (fun e i j k => -dt * dz G F e i j k),
      total_mul, show total G area (fun e i j k => dz G F e i j k) = 0 from total_dz G area F h h0 hl,
      mul_zero, add_zero, ← total_combine]
    congr 1
    funext e i j k
    exact combine_sum coeff inst iU hc st part e i j k
  exact ⟨go State.r X (fun e i j he hi hj => (ends e i j he hi hj).1) (fun e i j he hi hj => (ends e i j he hi hj).2),
    go State.p (fun e i j k => X e i j k * thetaEdge G (st iA) e i j k)
      (fun e i j he hi hj => by rw [(ends e i j he hi hj).1, zero_mul])
      (fun e i j he hi hj => by rw [(ends e i j he hi hj).2, zero_mul])⟩

end Verif.Acoustic
