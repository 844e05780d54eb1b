import Verif.Physics.Moist
import Verif.Physics.SimpleRun
import Verif.Physics.KesslerRun
import Verif.Sphere.PropsVector
import Verif.Thermo.ConstantsProps

/-!
# C117: the simple physics in a patch
-/

namespace Verif.Physics

open Real Thermo

/-! ### Vocabulary -/

/-- A column of the interior. -/
def Moist.Inside (P : Moist) (i j : Nat) : Prop := P.aBegin ≤ i ∧ i < P.aEnd ∧ P.bBegin ≤ j ∧ j < P.bEnd

/-- A column: positive densities of all and of dry air and positive potential temperature; increasing heights of levels
and interfaces, the lowest level above zero and the ground not below; at least one level, or two if there is warm rain;
a positive time step; an ocean that does not boil. -/
structure Moist.ProperColumn (P : Moist) (s : Fields) (i j : Nat) : Prop where
  levels : 1 ≤ P.levels
  rain : P.precType = 0 → 2 ≤ P.levels
  dt : 0 < P.dt
  dry : ∀ k < P.levels, 0 < s.dry i j k
  density : ∀ k < P.levels, 0 < s.state 4 i j k
  theta : ∀ k < P.levels, 0 < s.state 2 i j k
  height : ∀ k, k + 1 < P.levels → P.height i j k < P.height i j (k + 1)
  iface : ∀ k < P.levels, P.iface i j k < P.iface i j (k + 1)
  low : 0 < P.height i j 0
  ground : 0 ≤ P.iface i j 0
  cool : P.test ≠ 3 → ∀ t, tsurf P.test (P.lat i j) = some t →
    saturation t < 9.80616 * ∑ k ∈ Finset.range P.levels, s.dry i j k * (P.iface i j (k + 1) - P.iface i j k)

/-- The wind at a node, eastward `u` and northward `v`: the state has the covariant components of the vector. -/
def Moist.HasWind (P : Moist) (s : Fields) (i j k : Nat) (u v : ℝ) : Prop :=
  ∃ lon lat, Sphere.rllFromXYP (P.X i) (P.Y j) P.panel = some (lon, lat) ∧
    s.state 0 i j k = Sphere.dot (Sphere.wind lon lat u v) (Sphere.tangentA P.panel (P.X i) (P.Y j)) * P.phys.earthRadius ∧
    s.state 1 i j k = Sphere.dot (Sphere.wind lon lat u v) (Sphere.tangentB P.panel (P.X i) (P.Y j)) * P.phys.earthRadius

/-! ### Columns -/

theorem moistColumn_other (P : Moist) (s t : Fields) (i j x y : Nat) (h : moistColumn P s i j = some t)
    (hne : ¬(x = i ∧ y = j)) : SameColumn t s x y := by
  unfold moistColumn at h
  split at h
  · simp at h
  split at h
  · simp at h
  split at h
  · simp at h
  cases h
  refine ⟨fun c k => ?_, fun c k => ?_, ?_⟩
  · exact if_neg (fun e => hne ⟨e.1, e.2.1⟩)
  · exact if_neg (fun e => hne ⟨e.1, e.2.1⟩)
  · exact if_neg hne

theorem moistColumn_same (P : Moist) (s t s1 : Fields) (i j : Nat) (h : SameColumn s t i j)
    (h1 : moistColumn P s i j = some s1) : ∃ t1, moistColumn P t i j = some t1 ∧ SameColumn s1 t1 i j := by
  have e1 : P.setting s i j = P.setting t i j := by
    unfold Moist.setting
    simp only [h.state, h.tracer]
  have e3 : P.eastward s i j = P.eastward t i j := by
    funext k
    unfold Moist.eastward
    simp only [h.state]
  have e2 : P.column s i j = P.column t i j := by
    unfold Moist.column thetaV
    rw [e3]
    simp only [h.state, h.tracer]
  unfold moistColumn at h1 ⊢
  rw [e1, e2, e3] at h1
  split at h1
  · simp at h1
  rename_i g1
  rw [if_neg g1]
  split at h1
  · simp at h1
  rename_i c precl g2
  split at h1
  · simp at h1
  rename_i g3
  cases h1
  dsimp only
  rw [if_neg g3]
  refine ⟨_, rfl, fun n k => ?_, fun n k => ?_, ?_⟩
  · simp only [h.state]
  · simp only [h.tracer]
  · simp only [h.fallen]

theorem moist_columns_nodup (P : Moist) : P.columns.Nodup :=
  columns_nodup ⟨P.levels, P.aBegin, P.aEnd, P.bBegin, P.bEnd, P.height, fun x => x, 0, 0⟩

theorem moist_mem_columns (P : Moist) (i j : Nat) : (i, j) ∈ P.columns ↔ P.Inside i j :=
  mem_columns ⟨P.levels, P.aBegin, P.aEnd, P.bBegin, P.bEnd, P.height, fun x => x, 0, 0⟩ i j

theorem moist_fold (P : Moist) (l : List (Nat × Nat)) (hl : l.Nodup) (s s' : Fields)
    (h : l.foldlM (fun s t => moistColumn P s t.1 t.2) s = some s') (x y : Nat) :
    ((x, y) ∉ l → SameColumn s' s x y) ∧
      ((x, y) ∈ l → ∃ t, moistColumn P s x y = some t ∧ SameColumn s' t x y) := by
  induction l generalizing s with
  | nil => cases h; exact ⟨fun _ => SameColumn.refl _ _ _, fun h => absurd h (by simp)⟩
  | cons t l ih =>
    rw [List.foldlM_cons] at h
    cases hm : moistColumn P s t.1 t.2 with
    | none => rw [hm] at h; cases h
    | some s1 =>
      rw [hm] at h
      obtain ⟨i1, i2⟩ := ih (List.nodup_cons.1 hl).2 s1 h
      constructor
      · intro hx
        refine (i1 (fun h' => hx (List.mem_cons_of_mem _ h'))).trans ?_
        refine moistColumn_other P s s1 _ _ x y hm (fun e => hx ?_)
        rw [e.1, e.2]
        exact List.mem_cons_self ..
      · intro hx
        rcases List.mem_cons.1 hx with e | hx
        · subst e
          exact ⟨s1, hm, i1 (List.nodup_cons.1 hl).1⟩
        · have hne : ¬(x = t.1 ∧ y = t.2) := by
            rintro ⟨rfl, rfl⟩
            exact (List.nodup_cons.1 hl).1 hx
          obtain ⟨t1, a1, a2⟩ := i2 hx
          obtain ⟨t2, b1, b2⟩ := moistColumn_same P _ _ _ x y (moistColumn_other P s s1 _ _ x y hm hne) a1
          exact ⟨t2, b1, a2.trans b2⟩

/-- What a column becomes. -/
theorem moistColumn_spec (P : Moist) (s t : Fields) (i j : Nat) (h : moistColumn P s i j = some t) :
    ∃ c precl, simplePhysics (P.setting s i j) (P.column s i j) = some (c, precl) ∧
      t.fallen i j = s.fallen i j + precl * P.dt ∧
      (∀ n k, 3 ≤ n → t.tracer n i j k = s.tracer n i j k) ∧
      (∀ n k, n = 3 ∨ 5 ≤ n → t.state n i j k = s.state n i j k) ∧
      (∀ n k, P.levels ≤ k → t.state n i j k = s.state n i j k ∧ t.tracer n i j k = s.tracer n i j k) ∧
      ∀ k < P.levels,
        t.state 4 i j k = moist ((P.setting s i j).rho k) (c.qv k) (c.qc k) (c.qr k) ∧
        t.state 2 i j k = c.p k / (t.state 4 i j k * P.phys.r) * (P.phys.p0 / c.p k) ^ P.phys.kappa * t.state 4 i j k ∧
        P.along i j (c.u k) (c.v k) = some (t.state 0 i j k, t.state 1 i j k) ∧
        t.tracer 0 i j k = c.qv k * t.state 4 i j k ∧ t.tracer 1 i j k = c.qc k * t.state 4 i j k ∧
        t.tracer 2 i j k = c.qr k * t.state 4 i j k := by
  unfold moistColumn at h
  split at h
  · simp at h
  split at h
  · simp at h
  rename_i c precl g2
  split at h
  · simp at h
  rename_i g3
  cases h
  refine ⟨c, precl, g2, by simp, fun n k hn => ?_, fun n k hn => ?_, fun n k hk => ?_, fun k hk => ?_⟩
  · simp [show n ≠ 0 by omega, show n ≠ 1 by omega, show n ≠ 2 by omega]
  · simp [show n ≠ 0 by omega, show n ≠ 1 by omega, show n ≠ 2 by omega, show n ≠ 4 by omega]
  · simp [show ¬k < P.levels by omega]
  · refine ⟨by simp [hk], by simp [hk], ?_, by simp [hk], by simp [hk], by simp [hk]⟩
    simp only [hk, and_self, if_true, OfNat.zero_ne_ofNat, OfNat.one_ne_ofNat, if_false, one_ne_zero]
    cases ha : P.along i j (c.u k) (c.v k) with
    | none => exact absurd ⟨k, hk, ha⟩ g3
    | some w => rfl

theorem inside_spec (P : Moist) (s s' : Fields) (h : moistPerform P s = some s') (i j : Nat) (hi : P.Inside i j) :
    ∃ t, moistColumn P s i j = some t ∧ SameColumn s' t i j :=
  (moist_fold P P.columns (moist_columns_nodup P) s s' h i j).2 ((moist_mem_columns P i j).2 hi)

theorem setting_proper (P : Moist) (s : Fields) (i j : Nat) (h : P.ProperColumn s i j) : (P.setting s i j).Proper := by
  refine ⟨h.levels, fun k hk => ?_, h.dt, h.height, h.iface, h.low, h.ground⟩
  have := h.dry k hk
  unfold Fields.dry at this
  show 0 < s.state 4 i j k - s.tracer 0 i j k - s.tracer 1 i j k - s.tracer 2 i j k
  linarith

theorem setting_cool (P : Moist) (s : Fields) (i j : Nat) (h : P.ProperColumn s i j) : (P.setting s i j).Cool := by
  intro h3 t ht
  refine lt_of_lt_of_eq (h.cool h3 t ht) ?_
  congr 1
  refine Finset.sum_congr rfl fun k _ => ?_
  show _ = (s.state 4 i j k - s.tracer 0 i j k - s.tracer 1 i j k - s.tracer 2 i j k) * (P.iface i j (k + 1) - P.iface i j k)
  unfold Fields.dry
  ring

theorem column_proper (P : Moist) (s : Fields) (i j : Nat) (calls : List (Quantity × ℝ)) (hg : Gas calls)
    (hphys : P.phys = after calls) (h : P.ProperColumn s i j) : (P.column s i j).Proper (P.setting s i j) := by
  refine ⟨fun k hk => ?_, fun _ _ => ratio_nonneg _ _, fun _ _ => ratio_nonneg _ _, fun _ _ => ratio_nonneg _ _⟩
  show 0 < pressureFromRhoTheta P.phys (s.state 4 i j k * thetaV s i j k)
  rw [hphys]
  have h1 := h.density k hk
  have h2 := h.theta k hk
  have h3 : 0 < thetaV s i j k := div_pos h2 h1
  exact ((C85_inverse calls hg _ (by positivity)).1).1

/-! ### Theorems -/

/-- **C117 (what the process leaves alone).**  Columns that are not in the interior stay as they are, and in the interior
so do the vertical velocity and the tracers that are not water. -/
theorem C117_untouched (P : Moist) (s s' : Fields) (h : moistPerform P s = some s') (i j : Nat) :
    (¬P.Inside i j → SameColumn s' s i j) ∧
      (∀ k, s'.state 3 i j k = s.state 3 i j k) ∧ ∀ n k, 3 ≤ n → s'.tracer n i j k = s.tracer n i j k := by
  have h0 : ¬P.Inside i j → SameColumn s' s i j := fun hi =>
    (moist_fold P P.columns (moist_columns_nodup P) s s' h i j).1 (fun h' => hi ((moist_mem_columns P i j).1 h'))
  refine ⟨h0, fun k => ?_, fun n k hn => ?_⟩
  · by_cases hi : P.Inside i j
    · obtain ⟨t, h1, h2⟩ := inside_spec P s s' h i j hi
      obtain ⟨c, r, -, -, -, h3, -⟩ := moistColumn_spec P s t i j h1
      rw [h2.state, h3 3 k (Or.inl rfl)]
    · exact (h0 hi).state 3 k
  · by_cases hi : P.Inside i j
    · obtain ⟨t, h1, h2⟩ := inside_spec P s s' h i j hi
      obtain ⟨c, r, -, -, h3, -⟩ := moistColumn_spec P s t i j h1
      rw [h2.tracer, h3 n k hn]
    · exact (h0 hi).tracer n k

/-- **C117 (dry air is conserved).**  At every node whose density is not zero after the process, the density of the dry
air is what it was. -/
theorem C117_dry (P : Moist) (s s' : Fields) (h : moistPerform P s = some s') (i j k : Nat)
    (hne : s'.state 4 i j k ≠ 0) : s'.dry i j k = s.dry i j k := by
  by_cases hi : P.Inside i j
  · obtain ⟨t, h1, h2⟩ := inside_spec P s s' h i j hi
    obtain ⟨c, r, -, -, -, -, h4, h5⟩ := moistColumn_spec P s t i j h1
    unfold Fields.dry
    rw [h2.state] at hne
    rw [h2.state, h2.tracer, h2.tracer, h2.tracer]
    by_cases hk : k < P.levels
    · obtain ⟨a, -, -, b0, b1, b2⟩ := h5 k hk
      rw [b0, b1, b2]
      rw [a] at hne ⊢
      unfold moist at hne ⊢
      have hd := (div_ne_zero_iff.1 hne).2
      show _ = s.state 4 i j k - (s.tracer 0 i j k + s.tracer 1 i j k + s.tracer 2 i j k)
      rw [show (P.setting s i j).rho k = s.state 4 i j k - s.tracer 0 i j k - s.tracer 1 i j k - s.tracer 2 i j k from rfl]
      field_simp
      ring
    · rw [(h4 _ k (by omega)).1, (h4 0 k (by omega)).2, (h4 1 k (by omega)).2, (h4 2 k (by omega)).2]
  · have hc := (C117_untouched P s s' h i j).1 hi
    unfold Fields.dry
    rw [hc.state, hc.tracer, hc.tracer, hc.tracer]

section Gas

variable (calls : List (Quantity × ℝ)) (hg : Gas calls) (P : Moist) (hphys : P.phys = after calls)
include hg hphys

/-- **C117 (no negative tracers).**  In a proper column of the interior no density of water is negative after the process
where the density of the air is positive. -/
theorem C117_tracers (s s' : Fields) (h : moistPerform P s = some s') (i j k : Nat) (hi : P.Inside i j)
    (hk : k < P.levels) (hp : P.ProperColumn s i j) (hpos : 0 < s'.state 4 i j k) (n : Nat) (hn : n < 3) :
    0 ≤ s'.tracer n i j k := by
  obtain ⟨t, h1, h2⟩ := inside_spec P s s' h i j hi
  obtain ⟨c, r, hs, -, -, -, -, h5⟩ := moistColumn_spec P s t i j h1
  obtain ⟨-, -, -, b0, b1, b2⟩ := h5 k hk
  have hw := C116_nonnegative _ (setting_proper P s i j hp) (setting_cool P s i j hp) hp.rain _
    (column_proper P s i j calls hg hphys hp) c r hs k hk
  rw [h2.state] at hpos
  rw [h2.tracer]
  have hn' : n = 0 ∨ n = 1 ∨ n = 2 := by omega
  rcases hn' with rfl | rfl | rfl
  · rw [b0]; exact mul_nonneg hw.1 hpos.le
  · rw [b1]; exact mul_nonneg hw.2.1 hpos.le
  · rw [b2]; exact mul_nonneg hw.2.2 hpos.le

/-- **C117 (wind).**  Away from the poles the process reads the wind of every level and writes one, and bounds on the
eastward and the northward wind of a column, with calm between them, hold afterwards. -/
theorem C117_wind (s s' : Fields) (h : moistPerform P s = some s') (i j : Nat) (hi : P.Inside i j)
    (hp : P.ProperColumn s i j) (hpan : Sphere.IsPanel P.panel) (hlon : Sphere.LonOK P.panel (P.X i))
    (hpole : ¬Sphere.atPole (P.X i) (P.Y j) P.panel) (hrad : P.phys.earthRadius ≠ 0) (u v : Nat → ℝ)
    (hw : ∀ k < P.levels, P.HasWind s i j k (u k) (v k)) (a b a' b' : ℝ) (ha : a ≤ 0) (hb : 0 ≤ b) (ha' : a' ≤ 0)
    (hb' : 0 ≤ b') (hu : ∀ k < P.levels, a ≤ u k ∧ u k ≤ b) (hv : ∀ k < P.levels, a' ≤ v k ∧ v k ≤ b') :
    ∀ k < P.levels, ∃ u' v', P.HasWind s' i j k u' v' ∧ a ≤ u' ∧ u' ≤ b ∧ a' ≤ v' ∧ v' ≤ b' := by
  obtain ⟨t, h1, h2⟩ := inside_spec P s s' h i j hi
  obtain ⟨c, r, hs, -, -, -, -, h5⟩ := moistColumn_spec P s t i j h1
  have he : ∀ k < P.levels, P.eastward s i j k = some (u k, v k) := by
    intro k hk
    obtain ⟨lon, lat, g1, g2, g3⟩ := hw k hk
    unfold Moist.eastward
    rw [g2, g3, mul_div_cancel_right₀ _ hrad, mul_div_cancel_right₀ _ hrad]
    exact Sphere.C34_covector_to _ _ _ _ lon lat P.panel hpan hlon hpole g1
  have hcu : ∀ k < P.levels, (P.column s i j).u k = u k := fun k hk => by
    show ((P.eastward s i j k).getD (0, 0)).1 = _
    rw [he k hk]; rfl
  have hcv : ∀ k < P.levels, (P.column s i j).v k = v k := fun k hk => by
    show ((P.eastward s i j k).getD (0, 0)).2 = _
    rw [he k hk]; rfl
  have hc := column_proper P s i j calls hg hphys hp
  have w1 := (C116_wind _ (setting_proper P s i j hp) (setting_cool P s i j hp) hp.rain _ hc c r hs a b ha hb).1
    (fun k hk => by rw [hcu k hk]; exact hu k hk)
  have w2 := (C116_wind _ (setting_proper P s i j hp) (setting_cool P s i j hp) hp.rain _ hc c r hs a' b' ha' hb').2
    (fun k hk => by rw [hcv k hk]; exact hv k hk)
  intro k hk
  refine ⟨c.u k, c.v k, ?_, (w1 k hk).1, (w1 k hk).2, (w2 k hk).1, (w2 k hk).2⟩
  obtain ⟨lon, lat, g1, -, -⟩ := hw k hk
  refine ⟨lon, lat, g1, ?_⟩
  have ha := (h5 k hk).2.2.1
  unfold Moist.along at ha
  rw [Sphere.C34_covector_from _ _ _ _ lon lat P.panel hpan hlon hpole g1, Option.map_some, Option.some_inj] at ha
  obtain ⟨e1, e2⟩ := Prod.mk.inj ha
  rw [h2.state, h2.state]
  exact ⟨e1.symm, e2.symm⟩

/-- **C117 (nothing to do).**  With large-scale precipitation only, a column of the interior that is nowhere
oversaturated and has no negative water stays as it is, and no rain is added. -/
theorem C117_idle (s s' : Fields) (h : moistPerform P s = some s') (i j : Nat) (hi : P.Inside i j)
    (hp : P.ProperColumn s i j) (hpan : Sphere.IsPanel P.panel) (hlon : Sphere.LonOK P.panel (P.X i))
    (hpole : ¬Sphere.atPole (P.X i) (P.Y j) P.panel) (hrad : P.phys.earthRadius ≠ 0)
    (hw : ∀ k < P.levels, ∃ u v, P.HasWind s i j k u v) (htest : P.test = 3) (hprec : P.precType = 1)
    (hq : ∀ n < 3, ∀ k < P.levels, 0 ≤ s.tracer n i j k)
    (hsat : ∀ k < P.levels,
      let q := s.tracer 0 i j k / s.state 4 i j k
      let p := pressureFromRhoTheta P.phys (s.state 2 i j k)
      specific q ≤ saturation (temperature p (s.dry i j k) q) / p) :
    SameColumn s' s i j := by
  obtain ⟨t, h1, h2⟩ := inside_spec P s s' h i j hi
  obtain ⟨c, r, hs, hf, ht3, hs3, hhi, h5⟩ := moistColumn_spec P s t i j h1
  have hS := setting_proper P s i j hp
  have hc := column_proper P s i j calls hg hphys hp
  refine h2.trans ?_
  have hratio : ∀ n < 3, ∀ k < P.levels, ratio (s.tracer n i j k) (s.state 4 i j k) = s.tracer n i j k / s.state 4 i j k := by
    intro n hn k hk
    unfold ratio
    rw [if_neg (not_lt.2 (div_nonneg (hq n hn k hk) (hp.density k hk).le))]
  have hx : ∀ k < P.levels, s.state 4 i j k * thetaV s i j k = s.state 2 i j k := by
    intro k hk
    unfold thetaV
    exact mul_div_cancel₀ _ (hp.density k hk).ne'
  have hdry : ∀ k, (P.setting s i j).rho k = s.dry i j k := by
    intro k
    show s.state 4 i j k - s.tracer 0 i j k - s.tracer 1 i j k - s.tracer 2 i j k = _
    unfold Fields.dry
    ring
  have key : ∀ k < P.levels, c.u k = (P.column s i j).u k ∧ c.v k = (P.column s i j).v k ∧
      c.qc k = (P.column s i j).qc k ∧ c.qr k = (P.column s i j).qr k ∧
      c.p k = (P.column s i j).p k ∧ c.qv k = (P.column s i j).qv k := by
    intro k hk
    obtain ⟨a1, a2, a3, a4, a5, -⟩ := C116_saturation _ hS _ hc htest hprec c r hs k hk
    refine ⟨a1, a2, a3, a4, a5 ?_⟩
    have := hsat k hk
    dsimp only at this
    rw [hdry]
    show specific (ratio (s.tracer 0 i j k) (s.state 4 i j k)) ≤ saturation (temperature (pressureFromRhoTheta P.phys
      (s.state 4 i j k * thetaV s i j k)) (s.dry i j k) (ratio (s.tracer 0 i j k) (s.state 4 i j k))) /
      pressureFromRhoTheta P.phys (s.state 4 i j k * thetaV s i j k)
    rw [hratio 0 (by norm_num) k hk, hx k hk]
    exact this
  have hr : r = 0 := by
    have := C116_rain_partial _ hS _ hc htest hprec c r hs
    have z : ∑ k ∈ Finset.range (P.setting s i j).nz, (P.setting s i j).rho k *
        ((P.setting s i j).zi (k + 1) - (P.setting s i j).zi k) / 1000 * ((P.column s i j).qv k - c.qv k) / (1 + c.qv k) = 0 := by
      refine Finset.sum_eq_zero fun k hk => ?_
      rw [Finset.mem_range] at hk
      rw [(key k hk).2.2.2.2.2]
      simp
    rw [z] at this
    exact (mul_eq_zero.1 this).resolve_right hp.dt.ne'
  have h4 : ∀ k < P.levels, t.state 4 i j k = s.state 4 i j k := by
    intro k hk
    obtain ⟨-, -, k3, k4, -, k6⟩ := key k hk
    rw [(h5 k hk).1, k3, k4, k6]
    show moist ((P.setting s i j).rho k) (ratio _ _) (ratio _ _) (ratio _ _) = _
    rw [hratio 0 (by norm_num) k hk, hratio 1 (by norm_num) k hk, hratio 2 (by norm_num) k hk, hdry]
    have hd := hp.density k hk
    have hdr := hp.dry k hk
    unfold moist
    unfold Fields.dry at hdr ⊢
    have : 1 - s.tracer 0 i j k / s.state 4 i j k - s.tracer 1 i j k / s.state 4 i j k - s.tracer 2 i j k / s.state 4 i j k =
        (s.state 4 i j k - (s.tracer 0 i j k + s.tracer 1 i j k + s.tracer 2 i j k)) / s.state 4 i j k := by
      field_simp
      ring
    rw [this, div_div_cancel₀ hdr.ne']
  have htr : ∀ n < 3, ∀ k < P.levels, t.tracer n i j k = s.tracer n i j k := by
    intro n hn k hk
    obtain ⟨-, -, k3, k4, -, k6⟩ := key k hk
    obtain ⟨-, -, -, b0, b1, b2⟩ := h5 k hk
    have hd := (hp.density k hk).ne'
    have hn' : n = 0 ∨ n = 1 ∨ n = 2 := by omega
    rcases hn' with rfl | rfl | rfl
    · rw [b0, k6, h4 k hk]
      show ratio _ _ * _ = _
      rw [hratio 0 (by norm_num) k hk, div_mul_cancel₀ _ hd]
    · rw [b1, k3, h4 k hk]
      show ratio _ _ * _ = _
      rw [hratio 1 (by norm_num) k hk, div_mul_cancel₀ _ hd]
    · rw [b2, k4, h4 k hk]
      show ratio _ _ * _ = _
      rw [hratio 2 (by norm_num) k hk, div_mul_cancel₀ _ hd]
  have hth : ∀ k < P.levels, t.state 2 i j k = s.state 2 i j k := by
    intro k hk
    obtain ⟨-, -, -, -, k5, -⟩ := key k hk
    have hd := hp.density k hk
    have hT := hp.theta k hk
    rw [(h5 k hk).2.1, h4 k hk, k5]
    show pressureFromRhoTheta P.phys (s.state 4 i j k * thetaV s i j k) / _ *
      (_ / pressureFromRhoTheta P.phys (s.state 4 i j k * thetaV s i j k)) ^ _ * _ = _
    rw [hx k hk, hphys, (C85_state calls hg _ hT).1, (C85_derived calls).1]
    rw [show (after calls).p0 = latest calls .p0 from C85_values calls .p0,
      show (after calls).r = latest calls .r from C85_values calls .r]
    have hR := hg.r
    have hP := hg.p0
    have hcp := hg.cp
    set R := latest calls .r
    set p0 := latest calls .p0
    set cp := latest calls .cp
    set x := s.state 2 i j k
    have hy : 0 < R * x / p0 := by positivity
    set y := R * x / p0 with hydef
    rw [show p0 / (p0 * y ^ (cp / (cp - R))) = (y ^ (cp / (cp - R)))⁻¹ by field_simp,
      ← rpow_neg hy.le, ← rpow_mul hy.le]
    have : y ^ (cp / (cp - R)) * y ^ (-(cp / (cp - R)) * (R / cp)) = y := by
      rw [← rpow_add hy]
      have : cp / (cp - R) + -(cp / (cp - R)) * (R / cp) = 1 := by
        have h1 : cp - R ≠ 0 := by linarith
        have h2 : cp ≠ 0 := by linarith
        rw [neg_mul, div_mul_div_comm, mul_comm cp R, mul_div_mul_right _ _ h2, ← sub_eq_add_neg, ← sub_div, div_self h1]
      rw [this, rpow_one]
    calc p0 * y ^ (cp / (cp - R)) / (s.state 4 i j k * R) * y ^ (-(cp / (cp - R)) * (R / cp)) * s.state 4 i j k
        = p0 / R * (y ^ (cp / (cp - R)) * y ^ (-(cp / (cp - R)) * (R / cp))) := by field_simp
      _ = x := by rw [this, hydef]; field_simp
  have hwind : ∀ k < P.levels, t.state 0 i j k = s.state 0 i j k ∧ t.state 1 i j k = s.state 1 i j k := by
    intro k hk
    obtain ⟨k1, k2, -⟩ := key k hk
    obtain ⟨u, v, lon, lat, g1, g2, g3⟩ := hw k hk
    have he : P.eastward s i j k = some (u, v) := by
      unfold Moist.eastward
      rw [g2, g3, mul_div_cancel_right₀ _ hrad, mul_div_cancel_right₀ _ hrad]
      exact Sphere.C34_covector_to _ _ _ _ lon lat P.panel hpan hlon hpole g1
    have ha := (h5 k hk).2.2.1
    rw [k1, k2, show (P.column s i j).u k = ((P.eastward s i j k).getD (0, 0)).1 from rfl,
      show (P.column s i j).v k = ((P.eastward s i j k).getD (0, 0)).2 from rfl, he] at ha
    unfold Moist.along at ha
    rw [Option.getD_some, Sphere.C34_covector_from _ _ _ _ lon lat P.panel hpan hlon hpole g1, Option.map_some,
      Option.some_inj] at ha
    obtain ⟨e1, e2⟩ := Prod.mk.inj ha
    exact ⟨e1.symm.trans g2.symm, e2.symm.trans g3.symm⟩
  refine ⟨fun n k => ?_, fun n k => ?_, ?_⟩
  · by_cases hk : k < P.levels
    · by_cases h0 : n = 0
      · rw [h0]; exact (hwind k hk).1
      by_cases h1 : n = 1
      · rw [h1]; exact (hwind k hk).2
      by_cases h2 : n = 2
      · rw [h2]; exact hth k hk
      by_cases h4' : n = 4
      · rw [h4']; exact h4 k hk
      · exact hs3 n k (by omega)
    · exact (hhi n k (by omega)).1
  · by_cases hk : k < P.levels
    · by_cases h3 : n < 3
      · exact htr n h3 k hk
      · exact ht3 n k (by omega)
    · exact (hhi n k (by omega)).2
  · rw [hf, hr]
    ring

end Gas

/-! ### Examples -/

/-- A patch with one column of one level in the middle of a panel, with large-scale precipitation. -/
noncomputable def dot1 : Moist :=
  { levels := 1, aBegin := 0, aEnd := 1, bBegin := 0, bEnd := 1, height := fun _ _ _ => 1, iface := fun _ _ k => k,
    lat := fun _ _ => 0, X := fun _ => 0, Y := fun _ => 0, panel := 0, phys := after [], dt := 1, test := 3, pblType := 0,
    precType := 1 }

/-- Dry air with wind. -/
noncomputable def breeze : Fields :=
  { state := fun n _ _ _ => if n = 4 then 1 else if n = 2 then 300 else if n = 0 then 10 * 6371220 else 0
    tracer := fun _ _ _ _ => 0, fallen := fun _ _ => 0 }

theorem dot1_inside : dot1.Inside 0 0 := ⟨le_rfl, one_pos, le_rfl, one_pos⟩

theorem dot1_proper : dot1.ProperColumn breeze 0 0 := by
  refine ⟨le_rfl, fun h => absurd h (by decide), one_pos, fun k _ => ?_, fun k _ => ?_, fun k _ => ?_,
    fun k hk => absurd hk (by show ¬k + 1 < 1; omega), fun k _ => ?_, one_pos, ?_, fun h => absurd rfl h⟩
  · show (0 : ℝ) < 1 - (0 + 0 + 0)
    norm_num
  · show (0 : ℝ) < 1
    norm_num
  · show (0 : ℝ) < 300
    norm_num
  · show (k : ℝ) < ((k + 1 : ℕ) : ℝ)
    push_cast; linarith
  · show (0 : ℝ) ≤ ((0 : ℕ) : ℝ)
    norm_num

theorem dot1_performs : ∃ s', moistPerform dot1 breeze = some s' := by
  have e : moistPerform dot1 breeze = moistColumn dot1 breeze 0 0 := by
    unfold moistPerform
    rw [show dot1.columns = [(0, 0)] from rfl, List.foldlM_cons]
    show (moistColumn dot1 breeze 0 0 >>= fun s => some s) = _
    cases moistColumn dot1 breeze 0 0 <;> rfl
  rw [e]
  unfold moistColumn
  have h1 : ¬∃ k < dot1.levels, dot1.eastward breeze 0 0 k = none := by
    rintro ⟨k, -, hk⟩
    unfold Moist.eastward Sphere.coVecRLLFromABP Sphere.atPole at hk
    simp [dot1] at hk
  rw [if_neg h1]
  cases hs : simplePhysics (dot1.setting breeze 0 0) (dot1.column breeze 0 0) with
  | none =>
    rw [C116_choices] at hs
    exact absurd ⟨Or.inr (Or.inr rfl), Or.inr rfl, Or.inl rfl⟩ hs
  | some y =>
    dsimp only
    have h2 : ¬∃ k < dot1.levels, dot1.along 0 0 (y.1.u k) (y.1.v k) = none := by
      rintro ⟨k, -, hk⟩
      unfold Moist.along Sphere.coVecABPFromRLL Sphere.atPole at hk
      simp [dot1] at hk
    rw [if_neg h2]
    exact ⟨_, rfl⟩

theorem gas_nil : Gas [] := by
  refine ⟨?_, ?_, ?_⟩ <;> rw [latest_nil] <;> try rw [latest_nil]
  all_goals norm_num [fresh]

/-- The hypotheses of the theorems are met, with an eastward wind of 10 m/s. -/
example : ∃ s', moistPerform dot1 breeze = some s' ∧ SameColumn s' breeze 0 0 := by
  obtain ⟨s', h⟩ := dot1_performs
  refine ⟨s', h, ?_⟩
  have hr : ∃ lon lat, Sphere.rllFromXYP 0 0 0 = some (lon, lat) := by
    unfold Sphere.rllFromXYP
    simp
  obtain ⟨lon, lat, hr⟩ := hr
  have hrad : (after []).earthRadius = 6371220 := rfl
  refine C117_idle [] gas_nil dot1 rfl breeze s' h 0 0 dot1_inside dot1_proper (Or.inl rfl) ?_ ?_ ?_ ?_ rfl rfl
    (fun _ _ _ _ => le_rfl) ?_
  · intro h; exact absurd h (by decide)
  · intro h; exact absurd h.1 (by decide)
  · show (after []).earthRadius ≠ 0
    rw [hrad]; norm_num
  · intro k _
    have e := Sphere.C34_covector_from 0 0 10 0 lon lat 0 (Or.inl rfl) (fun h => absurd h (by decide))
      (fun h => absurd h.1 (by decide)) hr
    refine ⟨10, 0, lon, lat, hr, ?_⟩
    unfold Sphere.coVecABPFromRLL at e
    rw [if_neg (fun h => absurd h.1 (by decide)), if_pos (Or.inl rfl), Option.some_inj] at e
    obtain ⟨e1, e2⟩ := Prod.mk.inj e
    show (10 * 6371220 : ℝ) = Sphere.dot (Sphere.wind lon lat 10 0) (Sphere.tangentA 0 0 0) * (after []).earthRadius ∧
      (0 : ℝ) = Sphere.dot (Sphere.wind lon lat 10 0) (Sphere.tangentB 0 0 0) * (after []).earthRadius
    rw [← e1, ← e2, hrad]
    simp [Sphere.latEq]
  · intro k _
    dsimp only
    show specific (0 / 1) ≤ _
    have : specific (0 / 1) = 0 := by simp [specific]
    rw [this]
    refine div_nonneg (saturation_pos _).le ?_
    exact ((C85_inverse [] gas_nil 300 (by norm_num)).1).1.le

end Verif.Physics
