import Verif.Init.Whole

/-!
# What adding a perturbation does to a patch
-/

namespace Verif.Init

open Verif.Horiz Verif.Metric Verif.Sphere
open Verif.Halo (Momenta)

/-! ### Loops in which each pass changes its own point -/

theorem each_frame {σ β : Type} (n : Nat) (body : Nat → σ → Except Fault σ) (g : σ → β)
    (h : ∀ t s s', body t s = .ok s' → g s' = g s) (s s' : σ) (hr : each n body s = .ok s') : g s' = g s := by
  induction n generalizing s' with
  | zero => rw [each_zero] at hr; cases hr; rfl
  | succ n ih =>
    rw [each_succ] at hr
    cases hm : each n body s with
    | error e => rw [hm] at hr; simp [Except.bind] at hr
    | ok m =>
      rw [hm] at hr
      simp only [Except.bind] at hr
      rw [h n m s' hr, ih m hm]

theorem each_view {σ β : Type} (n : Nat) (body : Nat → σ → Except Fault σ) (J : σ → Prop) (V : σ → Nat → β)
    (Rel : Nat → β → β → Prop)
    (hf : ∀ t s s', body t s = .ok s' → ∀ u, u ≠ t → V s' u = V s u)
    (hs : ∀ t s s', J s → body t s = .ok s' → J s' ∧ Rel t (V s t) (V s' t)) (s s' : σ)
    (h0 : J s) (hr : each n body s = .ok s') :
    J s' ∧ (∀ t < n, Rel t (V s t) (V s' t)) ∧ ∀ t, n ≤ t → V s' t = V s t := by
  induction n generalizing s' with
  | zero =>
    rw [each_zero] at hr
    cases hr
    exact ⟨h0, fun t ht => absurd ht (by omega), fun _ _ => rfl⟩
  | succ n ih =>
    rw [each_succ] at hr
    cases hm : each n body s with
    | error e => rw [hm] at hr; simp [Except.bind] at hr
    | ok m =>
      rw [hm] at hr
      simp only [Except.bind] at hr
      obtain ⟨i1, i2, i3⟩ := ih m hm
      obtain ⟨j1, j2⟩ := hs n m s' i1 hr
      refine ⟨j1, fun t ht => ?_, fun t ht => ?_⟩
      · rcases Nat.lt_succ_iff_lt_or_eq.1 ht with h | h
        · rw [hf n m s' hr t (by omega)]; exact i2 t h
        · subst h; rw [← i3 t (le_refl t)]; exact j2
      · rw [hf n m s' hr t (by omega), i3 t (by omega)]

theorem each3_view {σ β : Type} (a b c : Nat) (body : Nat → Nat → Nat → σ → Except Fault σ) (J : σ → Prop)
    (V : σ → Nat → Nat → Nat → β) (Rel : Nat → Nat → Nat → β → β → Prop)
    (hf : ∀ i j k s s', body i j k s = .ok s' → ∀ x y z, (x ≠ i ∨ y ≠ j ∨ z ≠ k) → V s' x y z = V s x y z)
    (hs : ∀ i j k s s', J s → body i j k s = .ok s' → J s' ∧ Rel i j k (V s i j k) (V s' i j k)) (s s' : σ)
    (h0 : J s) (hr : each3 a b c body s = .ok s') :
    J s' ∧ (∀ i < a, ∀ j < b, ∀ k < c, Rel i j k (V s i j k) (V s' i j k)) ∧
      ∀ x y z, (a ≤ x ∨ b ≤ y ∨ c ≤ z) → V s' x y z = V s x y z := by
  have h1 : ∀ i j s s', J s → each c (fun k => body i j k) s = .ok s' →
      J s' ∧ ((∀ k < c, Rel i j k (V s i j k) (V s' i j k)) ∧ ∀ k, c ≤ k → V s' i j k = V s i j k) := by
    intro i j s s' hs' hr
    exact each_view c _ J (fun s k => V s i j k) (fun k => Rel i j k)
      (fun k s s' h u hu => hf i j k s s' h i j u (Or.inr (Or.inr hu))) (fun k => hs i j k) s s' hs' hr
  have f1 : ∀ i j s s', each c (fun k => body i j k) s = .ok s' → ∀ x y, (x ≠ i ∨ y ≠ j) → V s' x y = V s x y := by
    intro i j s s' hr x y hxy
    refine each_frame c _ (fun s => V s x y) (fun k s s' h => ?_) s s' hr
    funext z
    exact hf i j k s s' h x y z (by tauto)
  have h2 : ∀ i s s', J s → each b (fun j => each c (fun k => body i j k)) s = .ok s' →
      J s' ∧ ((∀ j < b, (∀ k < c, Rel i j k (V s i j k) (V s' i j k)) ∧ ∀ k, c ≤ k → V s' i j k = V s i j k) ∧
        ∀ j, b ≤ j → V s' i j = V s i j) := by
    intro i s s' hs' hr
    exact each_view b _ J (fun s j => V s i j)
      (fun j (old new : Nat → β) => (∀ k < c, Rel i j k (old k) (new k)) ∧ ∀ k, c ≤ k → new k = old k)
      (fun j s s' h u hu => f1 i j s s' h i u (Or.inr hu)) (fun j s s' => h1 i j s s') s s' hs' hr
  have f2 : ∀ i s s', each b (fun j => each c (fun k => body i j k)) s = .ok s' → ∀ x, x ≠ i → V s' x = V s x := by
    intro i s s' hr x hx
    refine each_frame b _ (fun s => V s x) (fun j s s' h => ?_) s s' hr
    funext y
    exact f1 i j s s' h x y (Or.inl hx)
  obtain ⟨q1, q2, q3⟩ := each_view a _ J V
    (fun i (old new : Nat → Nat → β) =>
      (∀ j < b, (∀ k < c, Rel i j k (old j k) (new j k)) ∧ ∀ k, c ≤ k → new j k = old j k) ∧
        ∀ j, b ≤ j → new j = old j)
    (fun i s s' h u hu => f2 i s s' h u hu) (fun i s s' => h2 i s s') s s' h0 hr
  refine ⟨q1, fun i hi j hj k hk => ((q2 i hi).1 j hj).1 k hk, fun x y z h => ?_⟩
  by_cases hx : x < a
  · by_cases hy : y < b
    · exact ((q2 x hx).1 y hy).2 z (by omega)
    · exact congrFun ((q2 x hx).2 y (by omega)) z
  · exact congrFun (congrFun (q3 x (by omega)) y) z

/-! ### One point -/

/-- What the loop over components makes of the old values `q`. -/
def added (f : Formulation) (q v : Nat → ℝ) (c : Nat) : ℝ :=
  match f with
  | .rhoTheta => if c = 2 then q 2 + q 4 * v 2 else q c + v c
  | .theta => q c + v c
  | .pressure => q c

theorem addState_at (P : Site) (v : Nat → ℝ) (i j k : Nat) (s s' : Nat → Nat → Nat → Nat → ℝ)
    (h : addState P v i j k s = .ok s') (c x y z : Nat) :
    s' c x y z = if c < P.rows ∧ x = i ∧ y = j ∧ z = k then added P.form (fun c => s c i j k) v c else s c x y z := by
  unfold addState at h
  have key : ∀ n, n ≤ P.rows → ∀ t, each n (fun c s =>
      match P.form with
      | .rhoTheta =>
        if c = 2 then
          if P.rows ≤ 4 then .error .outside
          else .ok (put4 s c i j k (s c i j k + s 4 i j k * v c))
        else .ok (put4 s c i j k (s c i j k + v c))
      | .theta => .ok (put4 s c i j k (s c i j k + v c))
      | .pressure => .ok s) s = .ok t → ∀ c x y z,
      t c x y z = if c < n ∧ x = i ∧ y = j ∧ z = k then added P.form (fun c => s c i j k) v c else s c x y z := by
    intro n
    induction n with
    | zero =>
      intro _ t ht c x y z
      rw [each_zero] at ht
      cases ht
      rw [if_neg (by omega)]
    | succ n ih =>
      intro hn t ht c x y z
      rw [each_succ] at ht
      cases hm : each n (fun c s =>
          match P.form with
          | .rhoTheta =>
            if c = 2 then
              if P.rows ≤ 4 then .error .outside
              else .ok (put4 s c i j k (s c i j k + s 4 i j k * v c))
            else .ok (put4 s c i j k (s c i j k + v c))
          | .theta => .ok (put4 s c i j k (s c i j k + v c))
          | .pressure => .ok s) s with
      | error e => rw [hm] at ht; simp [Except.bind] at ht
      | ok m =>
        have im := ih (by omega) m hm
        rw [hm] at ht
        simp only [Except.bind] at ht
        have hold : ∀ d, n ≤ d → m d i j k = s d i j k := fun d hd => by rw [im, if_neg (by omega)]
        have hput : ∀ val, t = put4 m n i j k val → val = added P.form (fun c => s c i j k) v n →
            t c x y z = if c < n + 1 ∧ x = i ∧ y = j ∧ z = k then added P.form (fun c => s c i j k) v c
              else s c x y z := by
          intro val e1 e2
          rw [e1, put4_at]
          by_cases h1 : c = n ∧ x = i ∧ y = j ∧ z = k
          · rw [if_pos h1, if_pos ⟨by omega, h1.2⟩, e2, h1.1]
          · rw [if_neg h1, im]
            by_cases h2 : c < n ∧ x = i ∧ y = j ∧ z = k
            · rw [if_pos h2, if_pos ⟨by omega, h2.2⟩]
            · rw [if_neg h2, if_neg]
              rintro ⟨a, b⟩
              rcases Nat.lt_succ_iff_lt_or_eq.1 a with h3 | h3
              · exact h2 ⟨h3, b⟩
              · exact h1 ⟨h3, b⟩
        cases hfm : P.form with
        | rhoTheta =>
          rw [hfm] at ht hput
          dsimp only at ht
          split_ifs at ht with h1 h2
          · simp only [Except.ok.injEq] at ht
            refine hput _ ht.symm ?_
            subst h1
            simp only [added, if_true]
            rw [hold 2 (le_refl _), hold 4 (by omega)]
          · simp only [Except.ok.injEq] at ht
            refine hput _ ht.symm ?_
            simp only [added, if_neg h1]
            rw [hold n (le_refl _)]
        | theta =>
          rw [hfm] at ht hput
          simp only [Except.ok.injEq] at ht
          refine hput _ ht.symm ?_
          simp only [added]
          rw [hold n (le_refl _)]
        | pressure =>
          rw [hfm] at ht im
          simp only [Except.ok.injEq] at ht
          subst ht
          rw [im]
          simp only [added]
          by_cases h2 : c < n ∧ x = i ∧ y = j ∧ z = k
          · rw [if_pos h2, if_pos ⟨by omega, h2.2⟩]
          · rw [if_neg h2]
            by_cases h3 : c < n + 1 ∧ x = i ∧ y = j ∧ z = k
            · rw [if_pos h3]; obtain ⟨_, rfl, rfl, rfl⟩ := h3; rfl
            · rw [if_neg h3]
  exact key P.rows (le_refl _) s' h c x y z

theorem addState_ok (P : Site) (v : Nat → ℝ) (i j k : Nat) (s : Nat → Nat → Nat → Nat → ℝ)
    (h : P.form = .rhoTheta → 2 < P.rows → 4 < P.rows) : ∃ s', addState P v i j k s = .ok s' := by
  unfold addState
  obtain ⟨s', hs, _⟩ := each_ok P.rows _ (fun _ => True) (fun t ht s _ => by
    show ∃ s' : Nat → Nat → Nat → Nat → ℝ, (match P.form with
      | .rhoTheta =>
        if t = 2 then
          if P.rows ≤ 4 then .error .outside
          else .ok (put4 s t i j k (s t i j k + s 4 i j k * v t))
        else .ok (put4 s t i j k (s t i j k + v t))
      | .theta => .ok (put4 s t i j k (s t i j k + v t))
      | .pressure => .ok s) = (Except.ok s' : Except Fault _) ∧ True
    cases hf : P.form with
    | rhoTheta =>
      dsimp only
      split_ifs with h1 h2
      · have := h hf (by omega); omega
      · exact ⟨_, rfl, trivial⟩
      · exact ⟨_, rfl, trivial⟩
    | theta => exact ⟨_, rfl, trivial⟩
    | pressure => exact ⟨_, rfl, trivial⟩) s trivial
  exact ⟨s', hs⟩

/-! ### The whole patch -/

/-- A number of the state or a tracer is never written. -/
def StateLeft (T : Test) (c : Nat) : Prop := ∀ z lon lat b, (T.evalPerturbation z lon lat b).state c = b.state c

/-- See `StateLeft`. -/
def TracerLeft (T : Test) (c : Nat) : Prop := ∀ z lon lat b, (T.evalPerturbation z lon lat b).tracers c = b.tracers c

/-- What the perturbation of a patch leaves at its points. -/
structure SpherePerturbed (P : Site) (T : Test) (n : Nat) (A A' : Arrays) : Prop where
  node : ∀ i < P.na, ∀ j < P.nb, ∀ k < P.levels, ∃ b, (∀ c, StateLeft T c → b.state c = 0) ∧
    (∀ c, TracerLeft T c → b.tracers c = 0) ∧
    (∀ c < P.rows, A'.node n c i j k = added P.form (fun c => A.node n c i j k)
      (T.evalPerturbation (A.height.level i j k) (P.lonlat i j).1 (P.lonlat i j).2 b).state c) ∧
    ∀ c < P.tracerRows, A'.tracer n c i j k = A.tracer n c i j k +
      (T.evalPerturbation (A.height.level i j k) (P.lonlat i j).1 (P.lonlat i j).2 b).tracers c
  edge : ∀ i < P.na, ∀ j < P.nb, ∀ k < P.levels + 1, ∃ b, (∀ c, StateLeft T c → b.state c = 0) ∧
    ∀ c < P.rows, A'.edge n c i j k = added P.form (fun c => A.edge n c i j k)
      (T.evalPerturbation (A.height.interface i j k) (P.lonlat i j).1 (P.lonlat i j).2 b).state c
  nodeFrame : ∀ m c x y z, (m ≠ n ∨ P.rows ≤ c ∨ P.na ≤ x ∨ P.nb ≤ y ∨ P.levels ≤ z) →
    A'.node m c x y z = A.node m c x y z
  edgeFrame : ∀ m c x y z, (m ≠ n ∨ P.rows ≤ c ∨ P.na ≤ x ∨ P.nb ≤ y ∨ P.levels + 1 ≤ z) →
    A'.edge m c x y z = A.edge m c x y z
  tracerFrame : ∀ m c x y z, (m ≠ n ∨ P.tracerRows ≤ c ∨ P.na ≤ x ∨ P.nb ≤ y ∨ P.levels ≤ z) →
    A'.tracer m c x y z = A.tracer m c x y z
  rest : A'.refNode = A.refNode ∧ A'.refEdge = A.refEdge ∧ A'.refTracer = A.refTracer ∧ A'.topo = A.topo ∧
    A'.height = A.height

/-- What a pass keeps. -/
def Kept (T : Test) (A : Arrays) (w : Work) : Prop :=
  (∀ c, StateLeft T c → w.buf.state c = 0) ∧ (∀ c, TracerLeft T c → w.buf.tracers c = 0) ∧
    w.A.refNode = A.refNode ∧ w.A.refEdge = A.refEdge ∧ w.A.refTracer = A.refTracer ∧ w.A.topo = A.topo ∧
    w.A.height = A.height

theorem sphere_perturbed {P : Site} {T : Test} {n : Nat} {A A' : Arrays} (h : perturb .sphere P T n A = .ok A') :
    ¬ refused P n ∧ SpherePerturbed P T n A A' := by
  unfold perturb at h
  dsimp only at h
  unfold spherePerturb at h
  split_ifs at h with hr
  obtain ⟨w₁, h1, h⟩ := bind_ok h
  obtain ⟨w₂, h2, h⟩ := bind_ok h
  simp only [pure, Except.pure, Except.ok.injEq] at h
  subst h
  refine ⟨hr, ?_⟩
  -- levels
  obtain ⟨⟨J1, e1⟩, R1, F1⟩ := each3_view P.na P.nb P.levels (fun i j k => spherePerturbNode P T n i j k)
    (fun w => Kept T A w ∧ w.A.edge = A.edge)
    (fun w x y z => ((fun m c => w.A.node m c x y z), (fun m c => w.A.tracer m c x y z)))
    (fun i j k old new => (∃ b : Buffers, (∀ c, StateLeft T c → b.state c = 0) ∧
      (∀ c, TracerLeft T c → b.tracers c = 0) ∧
      (∀ c < P.rows, new.1 n c = added P.form (old.1 n)
        (T.evalPerturbation (A.height.level i j k) (P.lonlat i j).1 (P.lonlat i j).2 b).state c) ∧
      ∀ c < P.tracerRows, new.2 n c = old.2 n c +
        (T.evalPerturbation (A.height.level i j k) (P.lonlat i j).1 (P.lonlat i j).2 b).tracers c) ∧
      (∀ m c, (m ≠ n ∨ P.rows ≤ c) → new.1 m c = old.1 m c) ∧
      ∀ m c, (m ≠ n ∨ P.tracerRows ≤ c) → new.2 m c = old.2 m c)
    (by
      intro i j k s s' hb x y z hne
      unfold spherePerturbNode at hb
      obtain ⟨node, hn, hb⟩ := bind_ok hb
      simp only [pure, Except.pure, Except.ok.injEq] at hb
      subst hb
      have hn' := addState_at _ _ _ _ _ _ _ hn
      have hno : ∀ r c : Nat, ¬ (c < r ∧ x = i ∧ y = j ∧ z = k) := by intro r c; omega
      refine Prod.ext ?_ ?_
      · funext m c
        show setAt s.A.node n node m c x y z = _
        by_cases hm : m = n
        · subst hm; rw [setAt_same, hn', if_neg (hno _ _)]
        · rw [setAt_other _ _ _ _ hm]
      · funext m c
        show setAt s.A.tracer n _ m c x y z = _
        by_cases hm : m = n
        · subst hm; rw [setAt_same, addTracers_at, if_neg (hno _ _)]
        · rw [setAt_other _ _ _ _ hm])
    (by
      intro i j k s s' ⟨K, eE⟩ hb
      unfold spherePerturbNode at hb
      obtain ⟨node, hn, hb⟩ := bind_ok hb
      simp only [pure, Except.pure, Except.ok.injEq] at hb
      subst hb
      have hn' := addState_at _ _ _ _ _ _ _ hn
      obtain ⟨k1, k2, k3, k4, k5, k6, k7⟩ := K
      refine ⟨⟨⟨fun c hc => ?_, fun c hc => ?_, k3, k4, k5, k6, k7⟩, eE⟩,
        ⟨s.buf, k1, k2, fun c hc => ?_, fun c hc => ?_⟩, fun m c hmc => ?_, fun m c hmc => ?_⟩
      · show (T.evalPerturbation _ _ _ s.buf).state c = 0
        rw [hc]; exact k1 c hc
      · show (T.evalPerturbation _ _ _ s.buf).tracers c = 0
        rw [hc]; exact k2 c hc
      · show setAt s.A.node n node n c i j k = _
        rw [setAt_same, hn', if_pos ⟨hc, rfl, rfl, rfl⟩, k7]
      · show setAt s.A.tracer n _ n c i j k = _
        rw [setAt_same, addTracers_at, if_pos ⟨hc, rfl, rfl, rfl⟩, k7]
      · show setAt s.A.node n node m c i j k = _
        by_cases hm : m = n
        · subst hm; rw [setAt_same, hn', if_neg (by omega)]
        · rw [setAt_other _ _ _ _ hm]
      · show setAt s.A.tracer n _ m c i j k = _
        by_cases hm : m = n
        · subst hm; rw [setAt_same, addTracers_at, if_neg (by omega)]
        · rw [setAt_other _ _ _ _ hm])
    ⟨A, Buffers.zero, Buffers.zero⟩ w₁ ⟨⟨fun _ _ => rfl, fun _ _ => rfl, rfl, rfl, rfl, rfl, rfl⟩, rfl⟩ h1
  -- interfaces
  obtain ⟨⟨J2, n2, t2⟩, R2, F2⟩ := each3_view P.na P.nb (P.levels + 1) (fun i j k => spherePerturbEdge P T n i j k)
    (fun w => Kept T A w ∧ w.A.node = w₁.A.node ∧ w.A.tracer = w₁.A.tracer)
    (fun w x y z => (fun m c => w.A.edge m c x y z))
    (fun i j k old new => (∃ b : Buffers, (∀ c, StateLeft T c → b.state c = 0) ∧
      ∀ c < P.rows, new n c = added P.form (old n)
        (T.evalPerturbation (A.height.interface i j k) (P.lonlat i j).1 (P.lonlat i j).2 b).state c) ∧
      ∀ m c, (m ≠ n ∨ P.rows ≤ c) → new m c = old m c)
    (by
      intro i j k s s' hb x y z hne
      unfold spherePerturbEdge at hb
      obtain ⟨edge, hn, hb⟩ := bind_ok hb
      simp only [pure, Except.pure, Except.ok.injEq] at hb
      subst hb
      have hn' := addState_at _ _ _ _ _ _ _ hn
      funext m c
      show setAt s.A.edge n edge m c x y z = _
      by_cases hm : m = n
      · subst hm; rw [setAt_same, hn', if_neg (by omega)]
      · rw [setAt_other _ _ _ _ hm])
    (by
      intro i j k s s' ⟨K, eN, eT⟩ hb
      unfold spherePerturbEdge at hb
      obtain ⟨edge, hn, hb⟩ := bind_ok hb
      simp only [pure, Except.pure, Except.ok.injEq] at hb
      subst hb
      have hn' := addState_at _ _ _ _ _ _ _ hn
      obtain ⟨k1, k2, k3, k4, k5, k6, k7⟩ := K
      refine ⟨⟨⟨fun c hc => ?_, fun c hc => ?_, k3, k4, k5, k6, k7⟩, eN, eT⟩,
        ⟨s.buf, k1, fun c hc => ?_⟩, fun m c hmc => ?_⟩
      · show (T.evalPerturbation _ _ _ s.buf).state c = 0
        rw [hc]; exact k1 c hc
      · show (T.evalPerturbation _ _ _ s.buf).tracers c = 0
        rw [hc]; exact k2 c hc
      · show setAt s.A.edge n edge n c i j k = _
        rw [setAt_same, hn', if_pos ⟨hc, rfl, rfl, rfl⟩, k7]
      · show setAt s.A.edge n edge m c i j k = _
        by_cases hm : m = n
        · subst hm; rw [setAt_same, hn', if_neg (by omega)]
        · rw [setAt_other _ _ _ _ hm])
    w₁ w₂ ⟨J1, rfl, rfl⟩ h2
  refine ⟨?_, ?_, ?_, ?_, ?_, J2.2.2⟩
  · intro i hi j hj k hk
    rw [n2, t2]
    exact (R1 i hi j hj k hk).1
  · intro i hi j hj k hk
    have := (R2 i hi j hj k hk).1
    rw [e1] at this
    exact this
  · intro m c x y z hmc
    rw [n2]
    by_cases hb : P.na ≤ x ∨ P.nb ≤ y ∨ P.levels ≤ z
    · exact congrFun (congrFun (congrArg Prod.fst (F1 x y z hb)) m) c
    · exact (R1 x (by omega) y (by omega) z (by omega)).2.1 m c (by omega)
  · intro m c x y z hmc
    have e : ∀ m c x y z, w₁.A.edge m c x y z = A.edge m c x y z := by intros; rw [e1]
    rw [← e]
    by_cases hb : P.na ≤ x ∨ P.nb ≤ y ∨ P.levels + 1 ≤ z
    · exact congrFun (congrFun (F2 x y z hb) m) c
    · exact (R2 x (by omega) y (by omega) z (by omega)).2 m c (by omega)
  · intro m c x y z hmc
    rw [t2]
    by_cases hb : P.na ≤ x ∨ P.nb ≤ y ∨ P.levels ≤ z
    · exact congrFun (congrFun (congrArg Prod.snd (F1 x y z hb)) m) c
    · exact (R1 x (by omega) y (by omega) z (by omega)).2.2 m c (by omega)

/-- What the perturbation of a patch of the Cartesian grid leaves at its points. -/
structure PlanePerturbed (P : Site) (T : Test) (n : Nat) (A A' : Arrays) : Prop where
  node : ∀ i < P.na, ∀ j < P.nb, ∀ k < P.levels, ∃ b v, ((∀ z lon lat b, T.evalPerturbation z lon lat b = b) →
      P.form ≠ .pressure → b.state = fun _ => 0) ∧
    convert P P.rows (T.evalPerturbation (A.height.level i j k) (P.alpha i) (P.beta j) b).state = .ok v ∧
    ∀ c < P.rows, A'.node n c i j k = v c
  edge : ∀ i < P.na, ∀ j < P.nb, ∀ k < P.levels + 1, ∃ b v, ((∀ z lon lat b, T.evalPerturbation z lon lat b = b) →
      P.form ≠ .pressure → b.state = fun _ => 0) ∧
    convert P P.rows (T.evalPerturbation (A.height.interface i j k) (P.alpha i) (P.beta j) b).state = .ok v ∧
    ∀ c < P.rows, A'.edge n c i j k = v c

theorem convert_zero (P : Site) (v : Nat → ℝ) (h : convert P P.rows (fun _ => 0) = .ok v) (hf : P.form ≠ .pressure) :
    v = fun _ => 0 := by
  unfold convert at h
  cases he : P.eqs <;> rw [he] at h
  · simpa using h.symm
  · dsimp only at h
    split_ifs at h
    simpa using h.symm
  · dsimp only at h
    split_ifs at h
    simp only [Except.ok.injEq] at h
    subst h
    funext c
    cases hq : P.form
    · exact absurd hq hf
    · cases P.mom <;> simp [set1]
    · cases P.mom <;> simp [set1]
  · simpa using h.symm

theorem plane_perturbed {P : Site} {T : Test} {n : Nat} {A A' : Arrays} (h : perturb .plane P T n A = .ok A') :
    ¬ refused P n ∧ PlanePerturbed P T n A A' := by
  unfold perturb at h
  dsimp only at h
  unfold planePerturb at h
  split_ifs at h with hr
  obtain ⟨w₁, h1, h⟩ := bind_ok h
  obtain ⟨w₂, h2, h⟩ := bind_ok h
  simp only [pure, Except.pure, Except.ok.injEq] at h
  subst h
  refine ⟨hr, ?_⟩
  obtain ⟨⟨J1, e1⟩, R1, _⟩ := each3_view P.na P.nb P.levels (fun i j k => planePerturbNode P T n i j k)
    (fun w => w.A.height = A.height ∧ ((∀ z lon lat b, T.evalPerturbation z lon lat b = b) → P.form ≠ .pressure →
      w.buf.state = fun _ => 0))
    (fun w x y z => (fun c => w.A.node n c x y z))
    (fun i j k _ new => ∃ b v, ((∀ z lon lat b, T.evalPerturbation z lon lat b = b) →
        P.form ≠ .pressure → b.state = fun _ => 0) ∧
      convert P P.rows (T.evalPerturbation (A.height.level i j k) (P.alpha i) (P.beta j) b).state = .ok v ∧
      ∀ c < P.rows, new c = v c)
    (by
      intro i j k s s' hb x y z hne
      unfold planePerturbNode at hb
      obtain ⟨v, hv, hb⟩ := bind_ok hb
      simp only [pure, Except.pure, Except.ok.injEq] at hb
      subst hb
      funext c
      show setAt s.A.node n _ n c x y z = _
      rw [setAt_same, store_at, if_neg (by omega)])
    (by
      intro i j k s s' ⟨K, eE⟩ hb
      unfold planePerturbNode at hb
      obtain ⟨v, hv, hb⟩ := bind_ok hb
      simp only [pure, Except.pure, Except.ok.injEq] at hb
      subst hb
      refine ⟨⟨K, fun hT hF => ?_⟩, s.buf, v, eE, by rw [← K]; exact hv, fun c hc => ?_⟩
      · refine convert_zero P v ?_ hF
        rw [hT, eE hT hF] at hv
        exact hv
      · show setAt s.A.node n _ n c i j k = _
        rw [setAt_same, store_at, if_pos ⟨hc, rfl, rfl, rfl⟩])
    ⟨A, Buffers.zero, Buffers.zero⟩ w₁ ⟨rfl, fun _ _ => rfl⟩ h1
  obtain ⟨⟨J2, n2, e2⟩, R2, _⟩ := each3_view (P.levels + 1) P.na P.nb (fun k i j => planePerturbEdge P T n i j k)
    (fun w => w.A.height = A.height ∧ w.A.node = w₁.A.node ∧
      ((∀ z lon lat b, T.evalPerturbation z lon lat b = b) → P.form ≠ .pressure → w.buf.state = fun _ => 0))
    (fun w z x y => (fun c => w.A.edge n c x y z))
    (fun k i j _ new => ∃ b v, ((∀ z lon lat b, T.evalPerturbation z lon lat b = b) →
        P.form ≠ .pressure → b.state = fun _ => 0) ∧
      convert P P.rows (T.evalPerturbation (A.height.interface i j k) (P.alpha i) (P.beta j) b).state = .ok v ∧
      ∀ c < P.rows, new c = v c)
    (by
      intro k i j s s' hb z x y hne
      unfold planePerturbEdge at hb
      obtain ⟨v, hv, hb⟩ := bind_ok hb
      simp only [pure, Except.pure, Except.ok.injEq] at hb
      subst hb
      funext c
      show setAt s.A.edge n _ n c x y z = _
      rw [setAt_same, store_at, if_neg (by omega)])
    (by
      intro k i j s s' ⟨K, eN, eE⟩ hb
      unfold planePerturbEdge at hb
      obtain ⟨v, hv, hb⟩ := bind_ok hb
      simp only [pure, Except.pure, Except.ok.injEq] at hb
      subst hb
      refine ⟨⟨K, eN, fun hT hF => ?_⟩, s.buf, v, eE, by rw [← K]; exact hv, fun c hc => ?_⟩
      · refine convert_zero P v ?_ hF
        rw [hT, eE hT hF] at hv
        exact hv
      · show setAt s.A.edge n _ n c i j k = _
        rw [setAt_same, store_at, if_pos ⟨hc, rfl, rfl, rfl⟩])
    w₁ w₂ ⟨J1, rfl, e1⟩ h2
  refine ⟨fun i hi j hj k hk => ?_, fun i hi j hj k hk => R2 k hk i hi j hj⟩
  rw [n2]
  exact R1 i hi j hj k hk

end Verif.Init
