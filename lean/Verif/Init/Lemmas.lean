import Verif.Init.Spec
import Verif.Metric.PropsHeight
import Verif.Metric.PropsTopo
import Verif.Sphere.PropsVector

/-!
# Lemmas about loops and single points
-/

namespace Verif.Init

open Verif.Horiz Verif.Metric Verif.Sphere
open Verif.Halo (Momenta)

/-! ### Loops -/

theorem each_zero {σ : Type} (body : Nat → σ → Except Fault σ) (s : σ) : each 0 body s = .ok s := rfl

theorem each_succ {σ : Type} (n : Nat) (body : Nat → σ → Except Fault σ) (s : σ) :
    each (n + 1) body s = (each n body s).bind (body n) := by
  unfold each
  rw [List.range_succ, List.foldlM_append]
  simp only [List.foldlM_cons, List.foldlM_nil]
  show (_ >>= fun s => body n s >>= pure) = _
  simp only [bind_pure]
  rfl

/-- A loop establishes `Q t` for every pass if each pass establishes it and does not undo it for other passes. -/
theorem each_spec {σ : Type} (n : Nat) (body : Nat → σ → Except Fault σ) (J : σ → Prop) (Q : Nat → σ → Prop) (N : Nat)
    (hn : n ≤ N)
    (h : ∀ t < N, ∀ s s', J s → body t s = .ok s' → J s' ∧ Q t s' ∧ ∀ u < N, u ≠ t → Q u s → Q u s') (s s' : σ)
    (hs : J s) (hr : each n body s = .ok s') :
    J s' ∧ (∀ t < n, Q t s') ∧ ∀ t, n ≤ t → t < N → Q t s → Q t s' := by
  induction n generalizing s' with
  | zero =>
    rw [each_zero] at hr
    cases hr
    exact ⟨hs, fun t ht => absurd ht (by omega), fun t _ _ h => h⟩
  | succ n ih =>
    rw [each_succ] at hr
    cases hm : each n body s with
    | error e => rw [hm] at hr; simp [Except.bind] at hr
    | ok m =>
      rw [hm] at hr
      simp only [Except.bind] at hr
      obtain ⟨i1, i2, i3⟩ := ih (by omega) m hm
      obtain ⟨j1, j2, j3⟩ := h n (by omega) m s' i1 hr
      refine ⟨j1, fun t ht => ?_, fun t ht htN hq => ?_⟩
      · rcases Nat.lt_succ_iff_lt_or_eq.1 ht with h1 | h1
        · exact j3 t (by omega) (by omega) (i2 t h1)
        · subst h1; exact j2
      · exact j3 t htN (by omega) (i3 t (by omega) htN hq)

/-- A loop succeeds if each of its passes does. -/
theorem each_ok {σ : Type} (n : Nat) (body : Nat → σ → Except Fault σ) (J : σ → Prop)
    (h : ∀ t < n, ∀ s, J s → ∃ s', body t s = .ok s' ∧ J s') (s : σ) (hs : J s) :
    ∃ s', each n body s = .ok s' ∧ J s' := by
  induction n with
  | zero => exact ⟨s, each_zero _ _, hs⟩
  | succ n ih =>
    obtain ⟨m, hm, hJ⟩ := ih (fun t ht => h t (by omega))
    obtain ⟨s', h1, h2⟩ := h n (by omega) m hJ
    refine ⟨s', ?_, h2⟩
    rw [each_succ, hm]
    exact h1

/-- Three nested loops. -/
def each3 {σ : Type} (a b c : Nat) (body : Nat → Nat → Nat → σ → Except Fault σ) (s : σ) : Except Fault σ :=
  each a (fun i => each b (fun j => each c (fun k => body i j k))) s

theorem each3_spec {σ : Type} (a b c : Nat) (body : Nat → Nat → Nat → σ → Except Fault σ) (J : σ → Prop)
    (Q : Nat → Nat → Nat → σ → Prop)
    (h : ∀ i < a, ∀ j < b, ∀ k < c, ∀ s s', J s → body i j k s = .ok s' → J s' ∧ Q i j k s' ∧
      ∀ x < a, ∀ y < b, ∀ z < c, (x ≠ i ∨ y ≠ j ∨ z ≠ k) → Q x y z s → Q x y z s') (s s' : σ)
    (hs : J s) (hr : each3 a b c body s = .ok s') : J s' ∧ ∀ i < a, ∀ j < b, ∀ k < c, Q i j k s' := by
  have h1 : ∀ i < a, ∀ j < b, ∀ s s', J s → each c (fun k => body i j k) s = .ok s' →
      J s' ∧ (∀ k < c, Q i j k s') ∧ ∀ x < a, ∀ y < b, ∀ z < c, (x ≠ i ∨ y ≠ j) → Q x y z s → Q x y z s' := by
    intro i hi j hj s s' hs hr
    have e1 := each_spec c _ J (fun k s => Q i j k s) c (le_refl c)
      (fun k hk s s' hs hr => by
        obtain ⟨q1, q2, q3⟩ := h i hi j hj k hk s s' hs hr
        exact ⟨q1, q2, fun z hz hne => q3 i hi j hj z hz (Or.inr (Or.inr hne))⟩) s s' hs hr
    refine ⟨e1.1, e1.2.1, fun x hx y hy z hz hne hq => ?_⟩
    have e2 := each_spec c _ (fun t => J t ∧ Q x y z t) (fun _ _ => True) c (le_refl c)
      (fun k hk s s' hs hr => by
        obtain ⟨q1, _, q3⟩ := h i hi j hj k hk s s' hs.1 hr
        refine ⟨⟨q1, q3 x hx y hy z hz ?_ hs.2⟩, trivial, fun _ _ _ _ => trivial⟩
        rcases hne with h | h
        · exact Or.inl h
        · exact Or.inr (Or.inl h)) s s' ⟨hs, hq⟩ hr
    exact e2.1.2
  have h2 : ∀ i < a, ∀ s s', J s → each b (fun j => each c (fun k => body i j k)) s = .ok s' →
      J s' ∧ (∀ j < b, ∀ k < c, Q i j k s') ∧ ∀ x < a, x ≠ i → (∀ y < b, ∀ z < c, Q x y z s) →
        ∀ y < b, ∀ z < c, Q x y z s' := by
    intro i hi s s' hs hr
    have e1 := each_spec b _ J (fun j s => ∀ k < c, Q i j k s) b (le_refl b)
      (fun j hj s s' hs hr => by
        obtain ⟨q1, q2, q3⟩ := h1 i hi j hj s s' hs hr
        exact ⟨q1, q2, fun y hy hne hq z hz => q3 i hi y hy z hz (Or.inr hne) (hq z hz)⟩) s s' hs hr
    refine ⟨e1.1, e1.2.1, fun x hx hne hq y hy z hz => ?_⟩
    have e2 := each_spec b _ (fun t => J t ∧ Q x y z t) (fun _ _ => True) b (le_refl b)
      (fun j hj s s' hs hr => by
        obtain ⟨q1, _, q3⟩ := h1 i hi j hj s s' hs.1 hr
        exact ⟨⟨q1, q3 x hx y hy z hz (Or.inl hne) hs.2⟩, trivial, fun _ _ _ _ => trivial⟩) s s' ⟨hs, hq y hy z hz⟩ hr
    exact e2.1.2
  have e := each_spec a _ J (fun i s => ∀ j < b, ∀ k < c, Q i j k s) a (le_refl a)
    (fun i hi s s' hs hr => by
      obtain ⟨q1, q2, q3⟩ := h2 i hi s s' hs hr
      exact ⟨q1, q2, q3⟩) s s' hs hr
  exact ⟨e.1, e.2.1⟩

theorem each3_ok {σ : Type} (a b c : Nat) (body : Nat → Nat → Nat → σ → Except Fault σ) (J : σ → Prop)
    (h : ∀ i < a, ∀ j < b, ∀ k < c, ∀ s, J s → ∃ s', body i j k s = .ok s' ∧ J s') (s : σ) (hs : J s) :
    ∃ s', each3 a b c body s = .ok s' ∧ J s' :=
  each_ok a _ J (fun i hi s hs => each_ok b _ J (fun j hj s hs => each_ok c _ J (fun k hk s hs => h i hi j hj k hk s hs)
    s hs) s hs) s hs

/-! ### Arrays -/

theorem put4_at (s : Nat → Nat → Nat → Nat → ℝ) (c i j k : Nat) (v : ℝ) (d x y z : Nat) :
    put4 s c i j k v d x y z = if d = c ∧ x = i ∧ y = j ∧ z = k then v else s d x y z := rfl

theorem store_at (n : Nat) (v : Nat → ℝ) (i j k : Nat) (s : Nat → Nat → Nat → Nat → ℝ) (c x y z : Nat) :
    store n v i j k s c x y z = if c < n ∧ x = i ∧ y = j ∧ z = k then v c else s c x y z := by
  unfold store
  induction n with
  | zero => simp [loop_zero]
  | succ n ih =>
    rw [loop_succ, put4_at]
    by_cases h1 : c = n ∧ x = i ∧ y = j ∧ z = k
    · rw [if_pos h1, if_pos ⟨by omega, h1.2⟩, h1.1]
    · rw [if_neg h1, ih]
      by_cases h2 : c < n ∧ x = i ∧ y = j ∧ z = k
      · rw [if_pos h2, if_pos ⟨by omega, h2.2⟩]
      · rw [if_neg h2, if_neg]
        rintro ⟨a, b⟩
        rcases Nat.lt_succ_iff_lt_or_eq.1 a with h3 | h3
        · exact h2 ⟨h3, b⟩
        · exact h1 ⟨h3, b⟩

theorem addTracers_at (n : Nat) (v : Nat → ℝ) (i j k : Nat) (s : Nat → Nat → Nat → Nat → ℝ) (c x y z : Nat) :
    addTracers n v i j k s c x y z = if c < n ∧ x = i ∧ y = j ∧ z = k then s c x y z + v c else s c x y z := by
  unfold addTracers
  induction n with
  | zero => simp [loop_zero]
  | succ n ih =>
    rw [loop_succ, put4_at]
    by_cases h1 : c = n ∧ x = i ∧ y = j ∧ z = k
    · rw [if_pos h1, if_pos ⟨by omega, h1.2⟩]
      obtain ⟨rfl, rfl, rfl, rfl⟩ := h1
      rw [ih, if_neg (by omega)]
    · rw [if_neg h1, ih]
      by_cases h2 : c < n ∧ x = i ∧ y = j ∧ z = k
      · rw [if_pos h2, if_pos ⟨by omega, h2.2⟩]
      · rw [if_neg h2, if_neg]
        rintro ⟨a, b⟩
        rcases Nat.lt_succ_iff_lt_or_eq.1 a with h3 | h3
        · exact h2 ⟨h3, b⟩
        · exact h1 ⟨h3, b⟩

/-! ### One point -/

/-- The state of a buffer after conversion, on either grid. -/
theorem convert_spec (P : Site) (v r : Nat → ℝ) (h : convert P P.rows v = .ok r) (he : P.eqs = .nonhydro) :
    HoldsScalars P.form P.mom P.pressure (Air.of v) r ∧ r 0 = motion P.mom (v 4) (v 0) ∧
      r 1 = motion P.mom (v 4) (v 1) := by
  have hr : P.rows = 5 := by unfold Site.rows; rw [he]; rfl
  unfold convert at h
  rw [he, hr] at h
  simp only [ne_eq, not_true_eq_false, if_false, Except.ok.injEq] at h
  subst h
  cases P.form <;> cases P.mom <;>
    refine ⟨⟨?_, ?_, ?_⟩, ?_, ?_⟩ <;> simp [set1, heat, motion, Air.of] <;> ring_nf

theorem convert_plain (P : Site) (v r : Nat → ℝ) (h : convert P P.rows v = .ok r) (he : P.eqs ≠ .nonhydro) : r = v := by
  unfold convert at h
  cases hq : P.eqs <;> rw [hq] at h
  · simp at h; exact h.symm
  · dsimp only at h
    split_ifs at h
    simp at h; exact h.symm
  · exact absurd hq he
  · simp at h; exact h.symm

theorem convert_ok (P : Site) (v : Nat → ℝ) : ∃ r, convert P P.rows v = .ok r := by
  unfold convert Site.rows
  cases P.eqs <;> simp [Equations.components]

/-- The pair of velocities after the transform. -/
noncomputable def turned (P : Site) (i j : Nat) (v : Nat → ℝ) : Option (ℝ × ℝ) :=
  match P.mom with
  | .contravariant => Sphere.vecABPFromRLL (P.x i) (P.y j) P.panel (v 0 / P.radius) (v 1 / P.radius)
  | .covariant => Sphere.coVecABPFromRLL (P.x i) (P.y j) P.panel (v 0 * P.radius) (v 1 * P.radius)

theorem turn_spec (P : Site) (i j k : Nat) (v : Nat → ℝ) (s s' : Nat → Nat → Nat → Nat → ℝ)
    (h : turn P i j k (store P.rows v i j k s) = .ok s') :
    2 ≤ P.rows ∧ ∃ r, turned P i j v = some r ∧ s' = store P.rows (set1 (set1 v 0 r.1) 1 r.2) i j k s := by
  unfold turn at h
  split_ifs at h with h2
  refine ⟨by omega, ?_⟩
  rw [store_at, store_at, if_pos ⟨by omega, rfl, rfl, rfl⟩, if_pos ⟨by omega, rfl, rfl, rfl⟩] at h
  change (match turned P i j v with
    | some (u, v_1) => _ | none => _) = _ at h
  cases ht : turned P i j v with
  | none => rw [ht] at h; simp at h
  | some r =>
    rw [ht] at h
    simp only [Except.ok.injEq] at h
    refine ⟨r, rfl, ?_⟩
    subst h
    funext c x y z
    simp only [put4, store_at, set1]
    by_cases h1 : x = i ∧ y = j ∧ z = k
    · obtain ⟨rfl, rfl, rfl⟩ := h1
      by_cases c1 : c = 1
      · subst c1; simp; intro; omega
      · by_cases c0 : c = 0
        · subst c0; simp; intro; omega
        · simp [c1, c0]
    · simp [h1]

theorem turn_ok (P : Site) (i j k : Nat) (s : Nat → Nat → Nat → Nat → ℝ) (h : 2 ≤ P.rows) (hp : IsPanel P.panel) :
    ∃ s', turn P i j k s = .ok s' := by
  have hc : ∀ a b, ∃ r, coVecABPFromRLL (P.x i) (P.y j) P.panel a b = some r := by
    intro a b
    unfold coVecABPFromRLL
    rcases hp with h | h | h | h | h | h <;> rw [h] <;> simp <;> split_ifs <;> simp
  have hv : ∀ a b, ∃ r, vecABPFromRLL (P.x i) (P.y j) P.panel a b = some r := by
    intro a b
    unfold vecABPFromRLL
    rcases hp with h | h | h | h | h | h <;> rw [h] <;> simp <;> split_ifs <;> simp
  unfold turn
  rw [if_neg (by omega)]
  cases P.mom with
  | covariant =>
    obtain ⟨r, hr⟩ := hc (s 0 i j k * P.radius) (s 1 i j k * P.radius)
    dsimp only
    rw [hr]
    exact ⟨_, rfl⟩
  | contravariant =>
    obtain ⟨r, hr⟩ := hv (s 0 i j k / P.radius) (s 1 i j k / P.radius)
    dsimp only
    rw [hr]
    exact ⟨_, rfl⟩

theorem wind_scale (a lon lat u v : ℝ) : a • wind lon lat u v = wind lon lat (a * u) (a * v) := by
  unfold wind; module

/-- The transformed pair are the components of the wind. -/
theorem turned_spec (P : Site) (i j : Nat) (rho u v : ℝ) (w : Nat → ℝ) (r : ℝ × ℝ) (h : turned P i j w = some r)
    (h0 : w 0 = motion P.mom rho u) (h1 : w 1 = motion P.mom rho v) (hp : IsPanel P.panel)
    (hq : Regular P.panel (P.x i) (P.y j)) :
    SphereWind P.mom P.radius P.panel (P.x i) (P.y j) (P.lonlat i j).1 (P.lonlat i j).2 rho u v r := by
  have hl : rllFromXYP (P.x i) (P.y j) P.panel = some (P.lonlat i j) := by
    unfold Site.lonlat rllFromABP
    have : ∃ r, rllFromXYP (P.x i) (P.y j) P.panel = some r := by
      rcases hp with h | h | h | h | h | h <;> rw [h] <;> exact ⟨_, by simp [rllFromXYP]; rfl⟩
    obtain ⟨r, hr⟩ := this
    unfold Site.x Site.y at hr ⊢
    rw [hr]
  have hpole : ¬ atPole (P.x i) (P.y j) P.panel := hq.1
  have hx : LonOK P.panel (P.x i) := hq.2
  unfold turned at h
  unfold SphereWind
  cases hm : P.mom with
  | covariant =>
    rw [hm] at h h0 h1
    dsimp only [motion] at h h0 h1 ⊢
    rw [C34_covector_from _ _ _ _ _ _ _ hp hx hpole hl, h0, h1] at h
    simp only [Option.some.injEq] at h
    subst h
    rw [wind_scale, mul_comm u, mul_comm v]
    exact ⟨rfl, rfl⟩
  | contravariant =>
    rw [hm] at h h0 h1
    dsimp only [motion] at h h0 h1 ⊢
    obtain ⟨a, b, h2, h3⟩ := C34_vector_from (P.x i) (P.y j) (w 0 / P.radius) (w 1 / P.radius) _ _ _ hp hx hpole hl
    rw [h2] at h
    simp only [Option.some.injEq] at h
    subst h
    unfold Halo.Contravariant
    rw [h3, wind_scale, h0, h1]
    congr 1 <;> ring

end Verif.Init
