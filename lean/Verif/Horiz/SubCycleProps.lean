import Verif.Horiz.SubCycle
import Verif.Horiz.VectorProps
import Verif.Horiz.RayleighProps
import Verif.Horiz.FilterProps

/-!
# C78: viscosity after the sub-cycle
-/

namespace Verif.Horiz

/-! ### Vocabulary -/

/-- The product of two states in one variable at one level, summed over the patch. -/
noncomputable def patchInner (M : Medium) (ω : Nat → ℝ) (v : Var) (k : Nat) (f g : Data) : ℝ :=
  ∑ a ∈ Finset.range M.G.S.elemA, ∑ b ∈ Finset.range M.G.S.elemB,
    inner M ω v a b k (value M.G.S f v a b k) (value M.G.S g v a b k)

/-- The product of the horizontal velocities of two states at one level, summed over the patch. -/
noncomputable def patchFlow (M : Medium) (ω : Nat → ℝ) (k : Nat) (f g : Data) : ℝ :=
  ∑ a ∈ Finset.range M.G.S.elemA, ∑ b ∈ Finset.range M.G.S.elemB,
    flowDot M ω a b (flowOf M.G.S f a b k) (flowOf M.G.S g a b k)

/-- Direct stiffness summation averages: doing it twice is doing it once, and it is symmetric for the weights. -/
structure Averaging (M : Medium) (ω : Nat → ℝ) (dss : Data → Data) : Prop where
  idem : ∀ f, dss (dss f) = dss f
  scalar : ∀ f g v k, patchInner M ω v k f (dss g) = patchInner M ω v k (dss f) g
  flow : ∀ f g k, patchFlow M ω k f (dss g) = patchFlow M ω k (dss f) g

/-- The elements of the patch are regular for a variable at a level, with a symmetric metric. -/
structure Fit (M : Medium) (v : Var) (k : Nat) : Prop where
  regular : ∀ a b, a < M.G.S.elemA → b < M.G.S.elemB → RegularFor M v a b k
  symmetric : ∀ a b, a < M.G.S.elemA → b < M.G.S.elemB → Symmetric M.G a b

/-- All coefficients are zero, or the order of viscosity is. -/
def Damping.Off (A : Damping) : Prop := (A.nuScalar = 0 ∧ A.nuDiv = 0 ∧ A.nuVort = 0) ∨ A.order = 0

/-! ### Lemmas -/

theorem store_same (D : Nat → Data) (n : Nat) (u : Data) : store D n u n = u := if_pos rfl

theorem store_other (D : Nat → Data) (n m : Nat) (u : Data) (h : m ≠ n) : store D n u m = D m := if_neg h

theorem store_store (D : Nat → Data) (n : Nat) (u u' : Data) : store (store D n u) n u' = store D n u' := by
  funext m
  unfold store
  split <;> rfl

theorem patchInner_congr (M : Medium) (ω : Nat → ℝ) (v : Var) (k : Nat) (f g g' : Data)
    (h : ∀ x : Cell, x.v = v → g x = g' x) : patchInner M ω v k f g = patchInner M ω v k f g' := by
  unfold patchInner
  refine Finset.sum_congr rfl (fun a _ => Finset.sum_congr rfl (fun b _ => ?_))
  congr 1
  funext i j
  exact h _ rfl

theorem patchFlow_congr (M : Medium) (ω : Nat → ℝ) (k : Nat) (f g g' : Data)
    (h : ∀ x : Cell, x.v = .state 0 ∨ x.v = .state 1 → g x = g' x) : patchFlow M ω k f g = patchFlow M ω k f g' := by
  unfold patchFlow
  refine Finset.sum_congr rfl (fun a _ => Finset.sum_congr rfl (fun b _ => ?_))
  congr 1
  unfold flowOf
  congr 1
  · funext i j
    exact h _ (Or.inl rfl)
  · funext i j
    exact h _ (Or.inr rfl)

theorem inner_comm (M : Medium) (ω : Nat → ℝ) (v : Var) (a b k : Nat) (f g : Nat → Nat → ℝ) :
    inner M ω v a b k f g = inner M ω v a b k g f := by
  unfold inner
  refine Finset.sum_congr rfl (fun i _ => Finset.sum_congr rfl (fun j _ => by ring))

theorem patchInner_comm (M : Medium) (ω : Nat → ℝ) (v : Var) (k : Nat) (f g : Data) :
    patchInner M ω v k f g = patchInner M ω v k g f := by
  unfold patchInner
  exact Finset.sum_congr rfl (fun a _ => Finset.sum_congr rfl (fun b _ => inner_comm _ _ _ _ _ _ _ _))

theorem inner_change (M : Medium) (ω : Nat → ℝ) (v : Var) (a b k : Nat) (f : Nat → Nat → ℝ) (r u : Data) :
    inner M ω v a b k f (value M.G.S r v a b k) =
      inner M ω v a b k f (value M.G.S u v a b k) + inner M ω v a b k f (change M.G.S r u v a b k) := by
  rw [inner_quad, inner_quad, inner_quad, ← quad_add]
  refine quad_congr _ _ _ _ (fun i j _ _ => ?_)
  rw [change]
  ring

theorem flowDot_change (M : Medium) (ω : Nat → ℝ) (a b k : Nat) (t : Flow) (r u : Data) :
    flowDot M ω a b t (flowOf M.G.S r a b k) =
      flowDot M ω a b t (flowOf M.G.S u a b k) + flowDot M ω a b t (flowChange M.G.S r u a b k) := by
  unfold flowDot
  rw [areaSum_quad, areaSum_quad, areaSum_quad, ← quad_add]
  refine quad_congr _ _ _ _ (fun i j _ _ => ?_)
  simp only [flowOf, flowChange, change]
  ring

theorem gradDot_symm (M : Medium) (a b : Nat) (hs : Symmetric M.G a b) (f g : Nat → Nat → ℝ) (i j : Nat)
    (hi : i < M.G.S.order) (hj : j < M.G.S.order) : gradDot M a b f g i j = gradDot M a b g f i j := by
  simp only [gradDot]
  rw [← hs i j hi hj]
  ring

theorem mem_chosen (M : Medium) (v : Var) (hv : (∃ c, v = .state c ∧ 2 ≤ c ∧ c < M.components) ∨
    ∃ c, v = .tracer c ∧ c < M.G.S.tracers) : ∃ vs, M.chosen (-1) = some vs ∧ v ∈ vs := by
  refine ⟨_, by unfold Medium.chosen; rw [if_neg (by omega), if_neg (by omega)], ?_⟩
  rcases hv with ⟨c, rfl, h1, h2⟩ | ⟨c, rfl, h1⟩
  · refine List.mem_append_left _ (List.mem_map.2 ⟨c, ?_, rfl⟩)
    rw [List.mem_iff_getElem]
    refine ⟨c - 2, by simp; omega, ?_⟩
    simp
    omega
  · exact List.mem_append_right _ (List.mem_map.2 ⟨c, List.mem_range.2 h1, rfl⟩)

/-- The scalar call, summed over the patch. -/
theorem patch_scalar (M : Medium) (ω : Nat → ℝ) (h : Paired M.G.S.order M.B ω) (init : Data) (dt nu : ℝ) (scale : Bool)
    (u r : Data) (happ : applyScalar M init dt nu scale (-1) false u = some r) (c : Nat) (hc : 2 ≤ c)
    (hc' : c < M.components) (k : Nat) (hk : Carried M (.state c) k)
    (hf : Fit M (.state c) k) (t : Data) :
    patchInner M ω (.state c) k t r = patchInner M ω (.state c) k t u - dt * M.localNu nu scale *
      ∑ a ∈ Finset.range M.G.S.elemA, ∑ b ∈ Finset.range M.G.S.elemB, inner M ω (.state c) a b k (fun _ _ => 1)
        (gradDot M a b (value M.G.S init (.state c) a b k) (value M.G.S t (.state c) a b k)) := by
  obtain ⟨vs, hvs, hv⟩ := mem_chosen M (.state c) (Or.inl ⟨c, rfl, hc, hc'⟩)
  unfold patchInner
  rw [Finset.mul_sum, ← Finset.sum_sub_distrib]
  refine Finset.sum_congr rfl (fun a ha => ?_)
  rw [Finset.mul_sum, ← Finset.sum_sub_distrib]
  refine Finset.sum_congr rfl (fun b hb => ?_)
  rw [inner_change M ω _ a b k _ r u, change_tested M ω h init dt nu scale (-1) false u r happ _ a b k
    (Finset.mem_range.1 ha) (Finset.mem_range.1 hb) hk vs hvs hv
    (hf.regular a b (Finset.mem_range.1 ha) (Finset.mem_range.1 hb))]
  have e : diffused M init false (.state c) a b k = value M.G.S init (.state c) a b k := by
    funext i j
    simp [diffused]
  rw [e]
  ring

/-- The vector call, summed over the patch. -/
theorem patch_vector (M : Medium) (ω : Nat → ℝ) (h : Paired M.G.S.order M.B ω) (init : Data) (dt nuDiv nuVort : ℝ)
    (scale : Bool) (u : Data) (k : Nat) (hk : k < M.G.S.levels)
    (hm : ∀ a b, a < M.G.S.elemA → b < M.G.S.elemB → Metric M a b) (t : Data) :
    patchFlow M ω k t (applyVector M false init dt nuDiv nuVort scale u) = patchFlow M ω k t u +
      ∑ a ∈ Finset.range M.G.S.elemA, ∑ b ∈ Finset.range M.G.S.elemB,
      (dt * M.localNu nuDiv scale * areaSum M ω a b (fun i j => (flowOf M.G.S init a b k).div M a b i j *
          (flowOf M.G.S t a b k).div M a b i j) +
        dt * M.localNu nuVort scale * areaSum M ω a b (fun i j => (flowOf M.G.S init a b k).curl M a b i j *
          (flowOf M.G.S t a b k).curl M a b i j)) := by
  unfold patchFlow
  rw [← Finset.sum_add_distrib]
  refine Finset.sum_congr rfl (fun a ha => ?_)
  rw [← Finset.sum_add_distrib]
  refine Finset.sum_congr rfl (fun b hb => ?_)
  rw [flowDot_change M ω a b k _ _ u, C76_weak M ω h init dt nuDiv nuVort scale u a b k (Finset.mem_range.1 ha)
    (Finset.mem_range.1 hb) hk (hm a b (Finset.mem_range.1 ha) (Finset.mem_range.1 hb))]

theorem filter_state (S : Shape) (area : Nat → Nat → Nat → ℝ) (u : Data) (x : Cell) (c : Nat) (h : x.v = .state c) :
    filterTracers S area u x = u x := by
  refine C73_elsewhere S area u x.v x.iA x.iB x.k ?_
  rintro ⟨-, -, d, -, hd⟩
  rw [h] at hd
  cases hd

/-! ### Properties -/

/-- **C78 (what is refused).**  The step goes through exactly if the working instance is neither the initial nor the
updated one and viscosity is off, or of order two or four with all scalars on levels or interfaces. -/
theorem C78_succeeds (A : Damping) (dss : Data → Data) (dt : ℝ) (I U W : Nat) (D : Nat → Data) :
    (∃ D', stepAfterSubCycle A dss dt I U W D = some D') ↔
      I ≠ W ∧ U ≠ W ∧ (A.Off ∨ ((A.order = 2 ∨ A.order = 4) ∧
        ∀ c, 2 ≤ c → c < A.M.components → A.M.located c ≠ .other)) := by
  classical
  unfold Damping.Off
  have sc : ∀ init dt nu scale u, (∃ r, applyScalar A.M init dt nu scale (-1) false u = some r) ↔
      ∀ c, 2 ≤ c → c < A.M.components → A.M.located c ≠ .other := by
    intro init dt nu scale u
    rw [C75_succeeds]
    simp
  by_cases h1 : I = W
  · simp [stepAfterSubCycle, h1]
  by_cases h2 : U = W
  · simp [stepAfterSubCycle, h1, h2]
  by_cases h3 : A.nuScalar = 0 ∧ A.nuDiv = 0 ∧ A.nuVort = 0
  · simp [stepAfterSubCycle, h1, h2, h3]
  by_cases h4 : A.order = 0
  · simp [stepAfterSubCycle, h1, h2, h4]
  by_cases h5 : A.order = 2
  · have : (∃ D', stepAfterSubCycle A dss dt I U W D = some D') ↔ ∃ r, applyScalar A.M (store D U (D I) I) dt A.nuScalar
        false (-1) false (store D U (D I) U) = some r := by
      unfold stepAfterSubCycle
      rw [if_neg h1, if_neg h2]
      simp only
      rw [if_neg h3, if_neg h4, if_pos h5]
      constructor
      · rintro ⟨D', hD⟩
        cases hr : applyScalar A.M (store D U (D I) I) dt A.nuScalar false (-1) false (store D U (D I) U) with
        | none => rw [hr] at hD; cases hD
        | some r => exact ⟨r, rfl⟩
      · rintro ⟨r, hr⟩
        rw [hr]
        exact ⟨_, rfl⟩
    rw [this, sc]
    simp [h1, h2, h3, h5]
  by_cases h6 : A.order = 4
  · constructor
    · rintro ⟨D', hD⟩
      unfold stepAfterSubCycle at hD
      rw [if_neg h1, if_neg h2] at hD
      simp only at hD
      rw [if_neg h3, if_neg h4, if_neg h5, if_pos h6] at hD
      refine ⟨h1, h2, Or.inr ⟨Or.inr h6, ?_⟩⟩
      rw [← sc (store (store D U (D I)) W (fun _ => 0) I) 1 1 false (store (store D U (D I)) W (fun _ => 0) W)]
      cases hr : applyScalar A.M (store (store D U (D I)) W (fun _ => 0) I) 1 1 false (-1) false
          (store (store D U (D I)) W (fun _ => 0) W) with
      | none => rw [hr] at hD; cases hD
      | some r => exact ⟨r, rfl⟩
    · rintro ⟨-, -, h | ⟨-, h⟩⟩
      · exact absurd h (by simp [h3, h4])
      · unfold stepAfterSubCycle
        rw [if_neg h1, if_neg h2]
        simp only
        rw [if_neg h3, if_neg h4, if_neg h5, if_pos h6]
        obtain ⟨r, hr⟩ := (sc (store (store D U (D I)) W (fun _ => 0) I) 1 1 false
          (store (store D U (D I)) W (fun _ => 0) W)).2 h
        rw [hr]
        simp only [Option.bind_eq_bind, Option.bind_some]
        obtain ⟨r', hr'⟩ := (sc _ _ _ _ _).2 h
        rw [hr']
        exact ⟨_, rfl⟩
  · simp [stepAfterSubCycle, h1, h2, h3, h4, h5, h6]

section

variable (A : Damping) (dss : Data → Data) (dt : ℝ) (I U W : Nat) (D D' : Nat → Data)
  (h : stepAfterSubCycle A dss dt I U W D = some D')

include h

theorem parts : I ≠ W ∧ U ≠ W ∧
    ((A.Off ∧ D' = store D U (sponge A dt (D I))) ∨
     (¬ A.Off ∧ A.order = 2 ∧ ∃ r, applyScalar A.M (D I) dt A.nuScalar false (-1) false (D I) = some r ∧
       ∃ i', (I ≠ U → i' = D I) ∧ (I = U → i' = r) ∧
       D' = store D U (sponge A dt (dss (filterTracers A.M.G.S A.area
        (applyVector A.M A.xz i' (-dt) A.nuDiv A.nuVort false r))))) ∨
     (¬ A.Off ∧ A.order = 4 ∧ ∃ w r, applyScalar A.M (D I) 1 1 false (-1) false (fun _ => 0) = some w ∧
       applyScalar A.M (dss (applyVector A.M A.xz (D I) 1 1 1 false w)) (-dt) A.nuScalar true (-1) false (D I) = some r ∧
       D' = store (store D W (dss (applyVector A.M A.xz (D I) 1 1 1 false w))) U (sponge A dt (dss (filterTracers A.M.G.S A.area
        (applyVector A.M A.xz (dss (applyVector A.M A.xz (D I) 1 1 1 false w)) (-dt) A.nuDiv A.nuVort true r)))))) := by
  classical
  unfold stepAfterSubCycle at h
  by_cases h1 : I = W
  · rw [if_pos h1] at h; cases h
  by_cases h2 : U = W
  · rw [if_neg h1, if_pos h2] at h; cases h
  refine ⟨h1, h2, ?_⟩
  rw [if_neg h1, if_neg h2] at h
  simp only at h
  have hI : store D U (D I) I = D I := by unfold store; split <;> simp_all
  by_cases h3 : A.nuScalar = 0 ∧ A.nuDiv = 0 ∧ A.nuVort = 0
  · rw [if_pos h3] at h
    cases h
    refine Or.inl ⟨Or.inl h3, ?_⟩
    rw [store_same, store_store]
  by_cases h4 : A.order = 0
  · rw [if_neg h3, if_pos h4] at h
    cases h
    refine Or.inl ⟨Or.inr h4, ?_⟩
    rw [store_same, store_store]
  have hoff : ¬ A.Off := by rintro (h | h) <;> simp_all
  by_cases h5 : A.order = 2
  · refine Or.inr (Or.inl ⟨hoff, h5, ?_⟩)
    rw [if_neg h3, if_neg h4, if_pos h5, hI, store_same] at h
    cases hr : applyScalar A.M (D I) dt A.nuScalar false (-1) false (D I) with
    | none => rw [hr] at h; cases h
    | some r =>
      rw [hr] at h
      simp only [Option.bind_eq_bind, Option.bind_some, store_same, store_store] at h
      refine ⟨r, rfl, _, ?_, ?_, (Option.some.inj h).symm⟩
      · intro hne
        exact store_other D U I r hne
      · intro he
        rw [he]
        exact store_same D U r
  by_cases h6 : A.order = 4
  · refine Or.inr (Or.inr ⟨hoff, h6, ?_⟩)
    rw [if_neg h3, if_neg h4, if_neg h5, if_pos h6, store_other _ W I _ h1, hI, store_same] at h
    cases hw : applyScalar A.M (D I) 1 1 false (-1) false (fun _ => 0) with
    | none => rw [hw] at h; cases h
    | some w =>
      rw [hw] at h
      simp only [Option.bind_eq_bind, Option.bind_some, store_same, store_store, store_other _ W I _ h1, hI,
        store_other _ W U _ h2] at h
      cases hr : applyScalar A.M (dss (applyVector A.M A.xz (D I) 1 1 1 false w)) (-dt) A.nuScalar true (-1) false (D I) with
      | none => rw [hr] at h; cases h
      | some r =>
        rw [hr] at h
        simp only [Option.bind_some, store_other _ U W _ (Ne.symm h2), store_same] at h
        refine ⟨w, r, rfl, hr, ?_⟩
        rw [← Option.some.inj h]
        funext m
        unfold store
        by_cases hmU : m = U
        · simp [hmU]
        · by_cases hmW : m = W
          · simp [hmW, Ne.symm h2]
          · simp [hmU, hmW]
  · rw [if_neg h3, if_neg h4, if_neg h5, if_neg h6] at h
    cases h

/-- **C78 (instances).**  Only the updated instance changes and, for viscosity of order four, the working one. -/
theorem C78_instances (m : Nat) (hU : m ≠ U) (hW : A.order = 4 → m ≠ W) : D' m = D m := by
  obtain ⟨-, -, ⟨-, h1⟩ | ⟨-, -, r, -, i', -, -, h1⟩ | ⟨-, h4, w, r, -, -, h1⟩⟩ := parts A dss dt I U W D D' h
  · rw [h1, store_other _ _ _ _ hU]
  · rw [h1, store_other _ _ _ _ hU]
  · rw [h1, store_other _ _ _ _ hU, store_other _ _ _ _ (hW h4)]

/-- **C78 (off).**  Without viscosity and without friction the updated instance is a copy of the initial one. -/
theorem C78_off (hA : A.Off) (hR : A.hasRayleigh = false) : D' U = D I := by
  obtain ⟨-, -, ⟨-, h1⟩ | ⟨hn, -⟩ | ⟨hn, -⟩⟩ := parts A dss dt I U W D D' h
  · rw [h1, store_same, sponge, hR]
    rfl
  · exact absurd hA hn
  · exact absurd hA hn

variable (ω : Nat → ℝ) (hp : Paired A.M.G.S.order A.M.B ω) (hd : Averaging A.M ω dss) (hR : A.hasRayleigh = false)
  (hu : dss (D I) = D I)

include hp hd hR hu

/-- **C78 (second order, scalars).**  For a state that summation leaves as it is: the product of the old and the new
state, in any scalar at any level, is the square of the old less time step times viscosity times the sum of the squared
gradients. -/
theorem C78_second (hA : ¬ A.Off) (ho : A.order = 2) (c : Nat) (hc : 2 ≤ c) (hc' : c < A.M.components)
    (k : Nat) (hk : Carried A.M (.state c) k) (hf : Fit A.M (.state c) k) :
    patchInner A.M ω (.state c) k (D I) (D' U) = patchInner A.M ω (.state c) k (D I) (D I) - dt * A.nuScalar *
      ∑ a ∈ Finset.range A.M.G.S.elemA, ∑ b ∈ Finset.range A.M.G.S.elemB, inner A.M ω (.state c) a b k (fun _ _ => 1)
        (gradDot A.M a b (value A.M.G.S (D I) (.state c) a b k) (value A.M.G.S (D I) (.state c) a b k)) := by
  obtain ⟨-, -, ⟨hn, -⟩ | ⟨-, -, r, hr, i', -, -, h1⟩ | ⟨-, h4, -⟩⟩ := parts A dss dt I U W D D' h
  · exact absurd hn hA
  · rw [h1, store_same, sponge, hR, if_neg (by simp), hd.scalar, hu,
      patchInner_congr A.M ω (.state c) k (D I) _ r (fun x hx => by
        rw [filter_state _ _ _ x c hx]
        exact vector_out _ _ _ _ _ _ _ _ x (by rw [hx]; constructor <;> simp <;> omega)),
      patch_scalar A.M ω hp _ _ _ _ _ _ hr c hc hc' k hk hf]
    rfl
  · omega

/-- **C78 (fourth order, scalars).**  The same for viscosity of order four, with the square of what is left in the working
instance, the averaged Laplacian of the state, in place of the squared gradients: hyperviscosity dissipates as well. -/
theorem C78_fourth (hA : ¬ A.Off) (ho : A.order = 4) (c : Nat) (hc : 2 ≤ c) (hc' : c < A.M.components)
    (k : Nat) (hk : Carried A.M (.state c) k) (hf : Fit A.M (.state c) k) :
    patchInner A.M ω (.state c) k (D I) (D' U) = patchInner A.M ω (.state c) k (D I) (D I) -
      dt * A.M.localNu A.nuScalar true * patchInner A.M ω (.state c) k (D' W) (D' W) := by
  obtain ⟨-, hUW, ⟨hn, -⟩ | ⟨-, h4, -⟩ | ⟨-, -, w, r, hw, hr, h1⟩⟩ := parts A dss dt I U W D D' h
  · exact absurd hn hA
  · omega
  · have hW : D' W = dss (applyVector A.M A.xz (D I) 1 1 1 false w) := by
      rw [h1, store_other _ _ _ _ (Ne.symm hUW), store_same]
    have e1 := patch_scalar A.M ω hp _ _ _ _ _ _ hr c hc hc' k hk hf (D I)
    have e2 := patch_scalar A.M ω hp _ _ _ _ _ _ hw c hc hc' k hk hf (D' W)
    have e3 : patchInner A.M ω (.state c) k (D' W) (D' W) = patchInner A.M ω (.state c) k (D' W) w := by
      have := hd.scalar (D' W) (applyVector A.M A.xz (D I) 1 1 1 false w) (.state c) k
      rw [← hW] at this
      rw [this]
      have hi : dss (D' W) = D' W := by rw [hW, hd.idem]
      rw [hi]
      exact patchInner_congr A.M ω (.state c) k _ _ w (fun x hx =>
        vector_out _ _ _ _ _ _ _ _ x (by rw [hx]; constructor <;> simp <;> omega))
    have e4 : patchInner A.M ω (.state c) k (D' W) (fun _ => 0) = 0 := by
      unfold patchInner inner
      refine Finset.sum_eq_zero (fun a _ => Finset.sum_eq_zero (fun b _ =>
        Finset.sum_eq_zero (fun i _ => Finset.sum_eq_zero (fun j _ => ?_))))
      simp [value]
    have e5 : ∑ a ∈ Finset.range A.M.G.S.elemA, ∑ b ∈ Finset.range A.M.G.S.elemB,
        inner A.M ω (.state c) a b k (fun _ _ => 1)
          (gradDot A.M a b (value A.M.G.S (D' W) (.state c) a b k) (value A.M.G.S (D I) (.state c) a b k)) =
        ∑ a ∈ Finset.range A.M.G.S.elemA, ∑ b ∈ Finset.range A.M.G.S.elemB,
        inner A.M ω (.state c) a b k (fun _ _ => 1)
          (gradDot A.M a b (value A.M.G.S (D I) (.state c) a b k) (value A.M.G.S (D' W) (.state c) a b k)) := by
      refine Finset.sum_congr rfl (fun a ha => Finset.sum_congr rfl (fun b hb => ?_))
      rw [inner_quad, inner_quad]
      refine quad_congr _ _ _ _ (fun i j hi hj => ?_)
      rw [gradDot_symm A.M a b (hf.symmetric a b (Finset.mem_range.1 ha) (Finset.mem_range.1 hb)) _ _ i j hi hj]
    have e6 : patchInner A.M ω (.state c) k (D I) (D' U) = patchInner A.M ω (.state c) k (D I) r := by
      rw [h1, store_same, sponge, hR, if_neg (by simp), hd.scalar, hu]
      exact patchInner_congr A.M ω (.state c) k (D I) _ r (fun x hx => by
        rw [filter_state _ _ _ x c hx]
        exact vector_out _ _ _ _ _ _ _ _ x (by rw [hx]; constructor <;> simp <;> omega))
    rw [e6, e1, ← hW, e5, e3, e2, e4]
    have l : A.M.localNu 1 false = 1 := rfl
    rw [l]
    ring

/-- **C78 (second order, velocity).**  The same for the horizontal velocity: kinetic energy is lost at the rate of squared
divergence and vorticity. -/
theorem C78_second_flow (hxz : A.xz = false) (hA : ¬ A.Off) (ho : A.order = 2) (hIU : I ≠ U) (k : Nat)
    (hk : k < A.M.G.S.levels)
    (hm : ∀ a b, a < A.M.G.S.elemA → b < A.M.G.S.elemB → Metric A.M a b) :
    patchFlow A.M ω k (D I) (D' U) = patchFlow A.M ω k (D I) (D I) - dt *
      ∑ a ∈ Finset.range A.M.G.S.elemA, ∑ b ∈ Finset.range A.M.G.S.elemB,
      (A.nuDiv * areaSum A.M ω a b (fun i j => (flowOf A.M.G.S (D I) a b k).div A.M a b i j ^ 2) +
        A.nuVort * areaSum A.M ω a b (fun i j => (flowOf A.M.G.S (D I) a b k).curl A.M a b i j ^ 2)) := by
  obtain ⟨-, -, ⟨hn, -⟩ | ⟨-, -, r, hr, i', hi', -, h1⟩ | ⟨-, h4, -⟩⟩ := parts A dss dt I U W D D' h
  · exact absurd hn hA
  · have hri : ∀ x : Cell, x.v = .state 0 ∨ x.v = .state 1 → r x = D I x := fun x hx =>
      C75_untouched A.M _ _ _ _ _ _ _ _ hr x (Or.inl ⟨rfl, hx⟩)
    rw [h1, store_same, sponge, hR, if_neg (by simp), hd.flow, hu,
      patchFlow_congr A.M ω k (D I) _ (applyVector A.M A.xz i' (-dt) A.nuDiv A.nuVort false r) (fun x hx => by
        rcases hx with hx | hx
        · exact filter_state _ _ _ x 0 hx
        · exact filter_state _ _ _ x 1 hx),
      hxz, hi' hIU, patch_vector A.M ω hp _ _ _ _ _ _ k hk hm, patchFlow_congr A.M ω k (D I) r (D I) hri, Finset.mul_sum,
      sub_eq_add_neg, ← Finset.sum_neg_distrib]
    congr 1
    refine Finset.sum_congr rfl (fun a _ => ?_)
    rw [Finset.mul_sum, ← Finset.sum_neg_distrib]
    refine Finset.sum_congr rfl (fun b _ => ?_)
    have l : ∀ nu, A.M.localNu nu false = nu := fun _ => rfl
    rw [l, l]
    simp only [pow_two]
    ring
  · omega

/-- **C78 (fourth order, velocity).**  With equal coefficients for divergence and vorticity, viscosity of order four loses
kinetic energy at the rate of the square of what is left in the working instance. -/
theorem C78_fourth_flow (hxz : A.xz = false) (hA : ¬ A.Off) (ho : A.order = 4) (he : A.nuDiv = A.nuVort) (k : Nat)
    (hk : k < A.M.G.S.levels)
    (hm : ∀ a b, a < A.M.G.S.elemA → b < A.M.G.S.elemB → Metric A.M a b) :
    patchFlow A.M ω k (D I) (D' U) = patchFlow A.M ω k (D I) (D I) -
      dt * A.M.localNu A.nuDiv true * patchFlow A.M ω k (D' W) (D' W) := by
  obtain ⟨-, hUW, ⟨hn, -⟩ | ⟨-, h4, -⟩ | ⟨-, -, w, r, hw, hr, h1⟩⟩ := parts A dss dt I U W D D' h
  · exact absurd hn hA
  · omega
  · have hW : D' W = dss (applyVector A.M A.xz (D I) 1 1 1 false w) := by
      rw [h1, store_other _ _ _ _ (Ne.symm hUW), store_same]
    have hri : ∀ x : Cell, x.v = .state 0 ∨ x.v = .state 1 → r x = D I x := fun x hx =>
      C75_untouched A.M _ _ _ _ _ _ _ _ hr x (Or.inl ⟨rfl, hx⟩)
    have hwi : ∀ x : Cell, x.v = .state 0 ∨ x.v = .state 1 → w x = (fun _ => (0 : ℝ)) x := fun x hx =>
      C75_untouched A.M _ _ _ _ _ _ _ _ hw x (Or.inl ⟨rfl, hx⟩)
    have e6 : patchFlow A.M ω k (D I) (D' U) =
        patchFlow A.M ω k (D I) (applyVector A.M false (D' W) (-dt) A.nuDiv A.nuVort true r) := by
      rw [h1, store_same, store_other _ _ _ _ (Ne.symm hUW), store_same, sponge, hR, if_neg (by simp), hd.flow, hu, hxz]
      exact patchFlow_congr A.M ω k (D I) _ _ (fun x hx => by
        rcases hx with hx | hx
        · exact filter_state _ _ _ x 0 hx
        · exact filter_state _ _ _ x 1 hx)
    have e3 : patchFlow A.M ω k (D' W) (D' W) =
        patchFlow A.M ω k (D' W) (applyVector A.M false (D I) 1 1 1 false w) := by
      have := hd.flow (D' W) (applyVector A.M A.xz (D I) 1 1 1 false w) k
      rw [← hW] at this
      rw [this]
      have hi : dss (D' W) = D' W := by rw [hW, hd.idem]
      rw [hi, hxz]
    have e4 : patchFlow A.M ω k (D' W) w = 0 := by
      rw [patchFlow_congr A.M ω k (D' W) w (fun _ => 0) hwi]
      unfold patchFlow flowDot areaSum
      refine Finset.sum_eq_zero (fun a _ => Finset.sum_eq_zero (fun b _ =>
        Finset.sum_eq_zero (fun i _ => Finset.sum_eq_zero (fun j _ => ?_))))
      simp [value, flowOf]
    rw [e6, patch_vector A.M ω hp _ _ _ _ _ _ k hk hm, patchFlow_congr A.M ω k (D I) r (D I) hri, e3,
      patch_vector A.M ω hp _ _ _ _ _ _ k hk hm, e4, zero_add, sub_eq_add_neg, ← mul_neg, ← Finset.sum_neg_distrib,
      Finset.mul_sum]
    congr 1
    refine Finset.sum_congr rfl (fun a _ => ?_)
    rw [← Finset.sum_neg_distrib, Finset.mul_sum]
    refine Finset.sum_congr rfl (fun b _ => ?_)
    have l : A.M.localNu 1 false = 1 := rfl
    have s : ∀ f g : Nat → Nat → ℝ, areaSum A.M ω a b (fun i j => f i j * g i j) =
        areaSum A.M ω a b (fun i j => g i j * f i j) := fun f g => by
      congr 1
      funext i j
      ring
    rw [l, ← he, s ((flowOf A.M.G.S (D' W) a b k).div A.M a b), s ((flowOf A.M.G.S (D' W) a b k).curl A.M a b)]
    ring

end

/-! ### A case that meets the hypotheses -/

/-- Hyperviscosity on the sample patch. -/
noncomputable def sampleDamping : Damping where
  M := sampleMedium
  P := sampleSponge
  area := fun _ _ _ => 1
  xz := false
  hasRayleigh := false
  order := 4
  nuScalar := 3
  nuDiv := 2
  nuVort := 2

theorem sample_fit (c : Nat) : Fit sampleMedium (.state c) 0 := by
  constructor
  · intro a b _ _ i j _ _
    by_cases h : c = 3 <;> simp [density, sampleMedium, h]
  · intro a b _ _ i j _ _
    simp [sampleMedium, sampleGeometry]

theorem sample_metrics (a b : Nat) : Metric sampleMedium a b := by
  intro i j _ _
  norm_num [jacAt, sampleMedium, sampleGeometry]

/-- Summation on the sample patch, whose two elements share the nodes with first index 3 and 4. -/
noncomputable def sampleDss (f : Data) : Data := fun x =>
  if x.iA = 3 ∨ x.iA = 4 then (f { x with iA := 3 } + f { x with iA := 4 }) / 2 else f x

theorem sample_averaging : Averaging sampleMedium simpsonWeights sampleDss := by
  constructor
  · intro f
    funext x
    unfold sampleDss
    by_cases h : x.iA = 3 ∨ x.iA = 4
    · simp [h]
    · simp [h]
  · intro f g v k
    have hj : ∀ x y, density sampleMedium v x y k = density sampleMedium v 0 0 k := by
      intro x y
      cases v with
      | tracer c => rfl
      | state c => by_cases h : c = 3 <;> simp [density, sampleMedium, h]
    unfold patchInner inner nodeWeight
    simp only [hj]
    generalize density sampleMedium v 0 0 k = J
    norm_num [sampleMedium, sampleGeometry, Finset.sum_range_succ, simpsonWeights, value, sampleDss]
    ring
  · intro f g k
    unfold patchFlow flowDot areaSum Flow.upA Flow.upB flowOf
    norm_num [jacAt, sampleMedium, sampleGeometry, Finset.sum_range_succ, simpsonWeights, value, sampleDss]
    ring

/-- A state that summation leaves as it is: the two copies of shared nodes agree. -/
theorem sample_continuous (u : Data) (h : ∀ x : Cell, u { x with iA := 3 } = u { x with iA := 4 }) :
    sampleDss u = u := by
  funext x
  unfold sampleDss
  split
  · rename_i hx
    rw [h x]
    rcases hx with hx | hx
    · have := h x
      rw [show ({ x with iA := 3 } : Cell) = x by cases x; simp_all] at this
      rw [this]
      ring
    · rw [show ({ x with iA := 4 } : Cell) = x by cases x; simp_all]
      ring
  · rfl

theorem sample_on : ¬ sampleDamping.Off := by
  rintro (h | h)
  · exact absurd h.1 (by norm_num [sampleDamping])
  · exact absurd h (by norm_num [sampleDamping])

example (D : Nat → Data) (hD : ∀ x : Cell, D 1 { x with iA := 3 } = D 1 { x with iA := 4 }) :
    ∃ D', stepAfterSubCycle sampleDamping sampleDss (1 / 10) 1 0 2 D = some D' ∧
    patchInner sampleMedium simpsonWeights (.state 4) 0 (D 1) (D' 0) =
      patchInner sampleMedium simpsonWeights (.state 4) 0 (D 1) (D 1) - 1 / 10 * sampleMedium.localNu 3 true *
        patchInner sampleMedium simpsonWeights (.state 4) 0 (D' 2) (D' 2) := by
  obtain ⟨D', h⟩ := (C78_succeeds sampleDamping sampleDss (1 / 10) 1 0 2 D).2 ⟨by decide, by decide, Or.inr ⟨Or.inr rfl,
    fun c _ _ => by simp only [sampleDamping, sampleMedium]; split <;> simp⟩⟩
  exact ⟨D', h, C78_fourth sampleDamping sampleDss (1 / 10) 1 0 2 D D' h simpsonWeights sample_paired sample_averaging rfl
    (sample_continuous _ hD) sample_on rfl 4 (by decide) (by decide) 0 (Or.inl ⟨rfl, by decide⟩) (sample_fit 4)⟩

end Verif.Horiz
