import Mathlib.Tactic.Tauto
import Verif.Horiz.Spec
import Verif.Metric.Model

/-!
# What the loops of the geometric terms leave in the arrays
-/

namespace Verif.Metric

open Verif.Horiz

theorem store_at (n : Nat) (t old : Nat → Terms) (k : Nat) : store n t old k = if k < n then t k else old k := by
  unfold store
  induction n with
  | zero => simp [loop_zero]
  | succ n ih =>
    rw [loop_succ, Function.update_apply]
    by_cases h : k = n
    · subst h; simp
    · rw [if_neg h, ih]
      by_cases h2 : k < n
      · rw [if_pos h2, if_pos (by omega)]
      · rw [if_neg h2, if_neg (by omega)]

/-- `f` writes `v y` to the cells of `T` and leaves the rest alone; `v` may depend on what a cell held before. -/
def Writes {ι α : Type} (f : (ι → α) → ι → α) (T : ι → Prop) (v : ι → α → α) : Prop :=
  (∀ s y, T y → f s y = v y (s y)) ∧ ∀ s y, ¬ T y → f s y = s y

/-- Writing twice is writing once. -/
def Settled {ι α : Type} (v : ι → α → α) : Prop := ∀ y o, v y (v y o) = v y o

theorem writes_loop {ι α : Type} (n : Nat) (f : Nat → (ι → α) → ι → α) (T : Nat → ι → Prop) (v : ι → α → α)
    (hv : Settled v) (h : ∀ t, t < n → Writes (f t) (T t) v) :
    Writes (fun s => loop n f s) (fun y => ∃ t < n, T t y) v := by
  induction n with
  | zero =>
    refine ⟨fun s y ⟨t, ht, _⟩ => absurd ht (by omega), fun s y _ => rfl⟩
  | succ n ih =>
    have h' := h n (by omega)
    have ih1 : ∀ s y, (∃ t < n, T t y) → loop n f s y = v y (s y) := (ih (fun t ht => h t (by omega))).1
    have ih2 : ∀ s y, ¬ (∃ t < n, T t y) → loop n f s y = s y := (ih (fun t ht => h t (by omega))).2
    refine ⟨fun s y hy => ?_, fun s y hy => ?_⟩
    · beta_reduce
      rw [loop_succ]
      by_cases h1 : T n y
      · rw [h'.1 _ y h1]
        by_cases h2 : ∃ t < n, T t y
        · rw [ih1 s y h2, hv]
        · rw [ih2 s y h2]
      · rw [h'.2 _ y h1]
        obtain ⟨t, ht, hty⟩ := hy
        have : t < n := by
          rcases Nat.lt_succ_iff_lt_or_eq.1 ht with h2 | rfl
          · exact h2
          · exact absurd hty h1
        exact ih1 s y ⟨t, this, hty⟩
    · beta_reduce
      rw [loop_succ, h'.2 _ y (fun h1 => hy ⟨n, by omega, h1⟩),
        ih2 s y (fun ⟨t, ht, h1⟩ => hy ⟨t, by omega, h1⟩)]

/-- A node of the interior as a pair. -/
def Inside (S : Shape) (y : Nat × Nat) : Prop :=
  ∃ a < S.elemA, ∃ b < S.elemB, ∃ i < S.order, ∃ j < S.order, y = (S.at a i, S.at b j)

theorem writes_overNodes {α : Type} (S : Shape) (f : Nat → Nat → Nat → Nat → (Nat × Nat → α) → Nat × Nat → α)
    (v : Nat × Nat → α → α) (hv : Settled v)
    (h : ∀ a b i j, a < S.elemA → b < S.elemB → i < S.order → j < S.order →
      Writes (f a b i j) (fun y => y = (S.at a i, S.at b j)) v) :
    Writes (overNodes S f) (Inside S) v := by
  unfold overNodes Inside
  exact writes_loop _ _ _ v hv (fun a ha => writes_loop _ _ _ v hv (fun b hb => writes_loop _ _ _ v hv (fun i hi =>
    writes_loop _ _ _ v hv (fun j hj => h a b i j ha hb hi hj))))

/-- Node number within the element of an interior index. -/
theorem at_mod (S : Shape) (a i : Nat) (hi : i < S.order) : (S.at a i - S.halo) % S.order = i := by
  unfold Shape.at
  rw [Nat.add_sub_cancel, Nat.add_comm, Nat.add_mul_mod_self_right, Nat.mod_eq_of_lt hi]

theorem inside_iff (S : Shape) (x y : Nat) : Inside S (x, y) ↔ Interior S x y := by
  unfold Inside Interior Shape.at
  constructor
  · rintro ⟨a, ha, b, hb, i, hi, j, hj, e⟩
    simp only [Prod.mk.injEq] at e
    obtain ⟨rfl, rfl⟩ := e
    have h1 : (a + 1) * S.order ≤ S.elemA * S.order := Nat.mul_le_mul_right _ ha
    have h2 : (b + 1) * S.order ≤ S.elemB * S.order := Nat.mul_le_mul_right _ hb
    rw [Nat.add_mul] at h1 h2
    omega
  · rintro ⟨h1, h2, h3, h4⟩
    have ho : 0 < S.order := by
      rcases Nat.eq_zero_or_pos S.order with h | h
      · rw [h] at h2; omega
      · exact h
    refine ⟨(x - S.halo) / S.order, Nat.div_lt_of_lt_mul (by rw [Nat.mul_comm]; omega),
      (y - S.halo) / S.order, Nat.div_lt_of_lt_mul (by rw [Nat.mul_comm]; omega),
      (x - S.halo) % S.order, Nat.mod_lt _ ho, (y - S.halo) % S.order, Nat.mod_lt _ ho, ?_⟩
    have e1 := Nat.div_add_mod (x - S.halo) S.order
    have e2 := Nat.div_add_mod (y - S.halo) S.order
    rw [Nat.mul_comm] at e1 e2
    simp only [Prod.mk.injEq]
    omega

/-- What `fill` leaves. -/
theorem fill_at (na nb : Nat) (v : Nat → Nat → ℝ) (s : Nat × Nat → ℝ) (i j : Nat) :
    fill na nb v s (i, j) = if i < na ∧ j < nb then v i j else s (i, j) := by
  have hv : Settled (fun (y : Nat × Nat) (_ : ℝ) => v y.1 y.2) := fun _ _ => rfl
  have h : Writes (fill na nb v) (fun y => ∃ i < na, ∃ j < nb, y = (i, j)) (fun y _ => v y.1 y.2) := by
    unfold fill
    refine writes_loop _ _ _ _ hv (fun i _ => writes_loop _ _ (fun j y => y = (i, j)) _ hv (fun j _ => ?_))
    refine ⟨fun s y hy => ?_, fun s y hy => ?_⟩
    · subst hy; simp [put]
    · exact if_neg hy
  by_cases hij : i < na ∧ j < nb
  · rw [if_pos hij, h.1 s (i, j) ⟨i, hij.1, j, hij.2, rfl⟩]
  · rw [if_neg hij, h.2 s (i, j)]
    rintro ⟨i', h1, j', h2, e⟩
    simp only [Prod.mk.injEq] at e
    obtain ⟨rfl, rfl⟩ := e
    exact hij ⟨h1, h2⟩

/-- What a node of the cubed sphere holds afterwards, as a function of the node. -/
noncomputable def sphereValue (P : Setup) (y : Nat × Nat) (o : Point) : Point :=
  let zs := if P.twoD then 0 else P.topo y.1 y.2
  let za := if P.twoD then 0 else P.topoA y.1 y.2
  let zb := if P.twoD then 0 else P.topoB y.1 y.2
  let i := (y.1 - P.S.halo) % P.S.order
  let j := (y.2 - P.S.halo) % P.S.order
  { flat := sphereFlat P.radius (P.x y.1) (P.y y.2)
    node := fun k => if k < P.S.levels then sphereLevel P.radius (P.x y.1) (P.y y.2) P.ztop zs za zb
      (P.w i * P.deltaA * P.w j * P.deltaB * P.wNode k) (P.level k) else o.node k
    edge := fun k => if k < P.S.levels + 1 then sphereInterface P.radius (P.x y.1) (P.y y.2) P.ztop zs za zb
      (P.w i * P.deltaA * P.w j * P.deltaB * P.wEdge k) (P.interface k) else o.edge k }

/-- What a node of the Cartesian grid holds afterwards, as a function of the node. -/
noncomputable def planeValue (P : Setup) (y : Nat × Nat) (o : Point) : Point :=
  let i := (y.1 - P.S.halo) % P.S.order
  let j := (y.2 - P.S.halo) % P.S.order
  { flat := planeFlat
    node := fun k => if k < P.S.levels then planeTerms P.ztop (P.topo y.1 y.2) (P.topoA y.1 y.2) (P.topoB y.1 y.2)
      (P.w i * P.deltaA * P.w j * P.deltaB * P.wNode k) (P.level k) else o.node k
    edge := fun k => if k < P.S.levels + 1 then planeTerms P.ztop (P.topo y.1 y.2) (P.topoA y.1 y.2) (P.topoB y.1 y.2)
      (P.w i * P.deltaA * P.w j * P.deltaB * P.wEdge k) (P.interface k) else o.edge k }

theorem sphereValue_settled (P : Setup) : Settled (sphereValue P) := by
  intro y o
  unfold sphereValue
  simp only [Point.mk.injEq, true_and]
  constructor <;> (funext k; split_ifs <;> rfl)

theorem planeValue_settled (P : Setup) : Settled (planeValue P) := by
  intro y o
  unfold planeValue
  simp only [Point.mk.injEq, true_and]
  constructor <;> (funext k; split_ifs <;> rfl)

theorem sphere_writes (P : Setup) : Writes (overNodes P.S (spherePoint P)) (Inside P.S) (sphereValue P) := by
  refine writes_overNodes _ _ _ (sphereValue_settled P) (fun a b i j _ _ hi hj => ?_)
  refine ⟨fun s y hy => ?_, fun s y hy => ?_⟩
  · subst hy
    unfold spherePoint sphereValue
    simp only [Function.update_self, at_mod P.S a i hi, at_mod P.S b j hj, Point.mk.injEq, true_and]
    constructor <;> (funext k; rw [store_at])
  · unfold spherePoint
    exact Function.update_of_ne hy _ _

theorem plane_writes (P : Setup) : Writes (overNodes P.S (planePoint P)) (Inside P.S) (planeValue P) := by
  refine writes_overNodes _ _ _ (planeValue_settled P) (fun a b i j _ _ hi hj => ?_)
  refine ⟨fun s y hy => ?_, fun s y hy => ?_⟩
  · subst hy
    unfold planePoint planeValue
    simp only [Function.update_self, at_mod P.S a i hi, at_mod P.S b j hj, Point.mk.injEq, true_and]
    constructor <;> (funext k; rw [store_at])
  · unfold planePoint
    exact Function.update_of_ne hy _ _

theorem sphereGeometry_at {P : Setup} {F F' : Nat × Nat → Point} (h : sphereGeometry P F = some F') {x y : Nat}
    (hi : Interior P.S x y) : F' (x, y) = sphereValue P (x, y) (F (x, y)) := by
  unfold sphereGeometry at h
  split_ifs at h
  simp only [Option.some.injEq] at h
  subst h
  exact (sphere_writes P).1 F (x, y) ((inside_iff _ _ _).2 hi)

theorem planeGeometry_at {P : Setup} {F F' : Nat × Nat → Point} (h : planeGeometry P F = some F') {x y : Nat}
    (hi : Interior P.S x y) : F' (x, y) = planeValue P (x, y) (F (x, y)) := by
  unfold planeGeometry at h
  split_ifs at h
  simp only [Option.some.injEq] at h
  subst h
  exact (plane_writes P).1 F (x, y) ((inside_iff _ _ _).2 hi)

end Verif.Metric
