import Verif.Deep.RestColumns

/-!
# Every step of a whole nonhydrostatic model keeps an atmosphere at rest
-/

namespace Verif.Deep

variable (A : Atmos) {node edge sNode sEdge : Nat → ℝ} {gauss lob : List ℝ × List ℝ} (hW : A.W.Tiled)
  (hQ : A.W.Quadrature) (hP : A.Primitive) (hC : A.Columnar node edge sNode sEdge gauss lob) (hT : A.W.TurnsRest)
  (hu : A.W.uniform = false) (hv : A.column.uniform = false) (hG : A.LevelGround) {P R : Nat → ℝ}
  (hB : A.Hydrostatic P R)

theorem Atmos.still_zero : A.Still (fun k => 0 * P k) (fun k => 0 * R k) 0 := fun _ _ _ _ =>
  ⟨fun _ _ => ⟨rfl, rfl, (zero_mul _).symm, (zero_mul _).symm⟩, fun _ _ => rfl⟩

theorem Atmos.still_add (r s : ℝ) (v w : A.W.Field) (h1 : A.Still (fun k => r * P k) (fun k => r * R k) v)
    (h2 : A.Still (fun k => s * P k) (fun k => s * R k) w) :
    A.Still (fun k => (r + s) * P k) (fun k => (r + s) * R k) (v + w) := by
  intro i iA iB hI
  obtain ⟨a1, a2⟩ := h1 i iA iB hI
  obtain ⟨b1, b2⟩ := h2 i iA iB hI
  simp only [Pi.add_apply]
  refine ⟨fun k hk => ?_, fun k hk => ?_⟩
  · obtain ⟨c0, c1, c2, c4⟩ := a1 k hk
    obtain ⟨d0, d1, d2, d4⟩ := b1 k hk
    rw [c0, c1, c2, c4, d0, d1, d2, d4]
    refine ⟨by ring, by ring, by ring, by ring⟩
  · rw [a2 k hk, b2 k hk]; ring

theorem Atmos.still_smul (r s : ℝ) (v : A.W.Field) (h : A.Still (fun k => s * P k) (fun k => s * R k) v) :
    A.Still (fun k => (r * s) * P k) (fun k => (r * s) * R k) (r • v) := by
  intro i iA iB hI
  obtain ⟨a1, a2⟩ := h i iA iB hI
  simp only [Pi.smul_apply, smul_eq_mul]
  refine ⟨fun k hk => ?_, fun k hk => ?_⟩
  · obtain ⟨c0, c1, c2, c4⟩ := a1 k hk
    rw [c0, c1, c2, c4]
    refine ⟨by ring, by ring, by ring, by ring⟩
  · rw [a2 k hk]; ring

theorem Atmos.still_one (v : A.W.Field) : A.Still (fun k => 1 * P k) (fun k => 1 * R k) v ↔ A.Still P R v := by
  simp only [one_mul]

include hW hQ hP hC hT hu hv hG hB

theorem Atmos.still_keeps :
    Steps.KeepsAll A.dyn (fun r (x : A.W.Field × A.W.Field) => A.Still (fun k => r * P k) (fun k => r * R k) x.1) := by
  have base : ∀ (ef : ℝ → A.W.Field × A.W.Field → A.W.Field × A.W.Field → A.W.Field × A.W.Field),
      (∀ s x y, A.Still P R x.1 → A.Still P R y.1 → A.Still P R (ef s x y).1) →
      Steps.Keeps A.dyn ef (fun r (x : A.W.Field × A.W.Field) => A.Still (fun k => r * P k) (fun k => r * R k) x.1) := by
    intro ef hef
    constructor
    · exact A.still_zero
    · intro r s x y hx hy
      exact A.still_add r s x.1 y.1 hx hy
    · intro r s x hx
      exact A.still_smul r s x.1 hx
    · intro s x y hx hy
      rw [A.still_one] at hx hy ⊢
      exact A.dss_still hW hP hC hT P R _ (hef s x y hx hy)
    · intro x hx
      rw [A.still_one] at hx ⊢
      exact A.dss_still hW hP hC hT P R _ hx
    · intro s x y hx hy
      rw [A.still_one] at hx hy ⊢
      exact A.implicit_still hW hC hv hB s x y hx hy
    · intro s x y hx hy; exact hy
    · intro s x y hx hy
      rw [A.still_one] at hx hy ⊢
      exact A.terms_still hC hv hB s P R x y hx hy
    · intro x hx; exact hx
    · intro s x hx
      rw [A.still_one] at hx ⊢
      exact A.after_still hW hQ hP hC hT s P R x hx
  refine ⟨base _ fun s x y hx hy => A.explicit_still hW hQ hC hu hG s P R P R x y hx hy,
    base _ fun s x y hx hy => A.vertical_still hC hv hB s P R x y hx hy, base _ fun s x y hx hy => ?_⟩
  exact A.vertical_still hC hv hB s P R _ _ hx (A.explicit_still hW hQ hC hu hG s P R P R x y hx hy)

theorem Atmos.still_dry :
    Steps.KeepsAll A.dry (fun r (x : A.W.Field × PUnit.{1}) => A.Still (fun k => r * P k) (fun k => r * R k) x.1) := by
  have h := A.still_keeps hW hQ hP hC hT hu hv hG hB
  have base : ∀ (eg : ℝ → A.W.Field × PUnit.{1} → A.W.Field × PUnit.{1} → A.W.Field × PUnit.{1}),
      (∀ s x y, A.Still P R x.1 → A.Still P R y.1 → A.Still P R (eg s x y).1) →
      Steps.Keeps A.dry eg (fun r (x : A.W.Field × PUnit.{1}) => A.Still (fun k => r * P k) (fun k => r * R k) x.1) := by
    intro eg he
    constructor
    · exact A.still_zero
    · intro r s x y hx hy
      exact A.still_add r s x.1 y.1 hx hy
    · intro r s x hx
      exact A.still_smul r s x.1 hx
    · intro s x y hx hy
      rw [A.still_one] at hx hy ⊢
      exact A.dss_still hW hP hC hT P R _ (he s x y hx hy)
    · intro x hx
      rw [A.still_one] at hx ⊢
      exact A.dss_still hW hP hC hT P R _ hx
    · intro s x y hx hy
      exact h.h.vImp s (x.1, fun _ _ _ _ _ => 0) (y.1, fun _ _ _ _ _ => 0) hx hy
    · intro s x y hx hy; exact hy
    · intro s x y hx hy
      exact h.h.vImpExp s (x.1, fun _ _ _ _ _ => 0) (y.1, fun _ _ _ _ _ => 0) hx hy
    · intro x hx; exact hx
    · intro s x hx
      exact h.h.hyper s (x.1, fun _ _ _ _ _ => 0) hx
  refine ⟨base _ fun s x y hx hy => A.explicit_still hW hQ hC hu hG s P R P R _ _ hx hy,
    base _ fun s x y hx hy => A.vertical_still hC hv hB s P R _ _ hx hy, base _ fun s x y hx hy => ?_⟩
  exact A.vertical_still hC hv hB s P R _ _ hx (A.explicit_still hW hQ hC hu hG s P R P R (x.1, fun _ _ _ _ _ => 0)
    (y.1, fun _ _ _ _ _ => 0) hx hy)

end Verif.Deep
