import Mathlib.Tactic.Ring
import Mathlib.Data.Real.Basic
import Mathlib.Algebra.BigOperators.Intervals
import Mathlib.Algebra.BigOperators.Ring.Finset

/-!
# Loops over an array

The loops of src/atm/HorizontalDynamicsFEM.cpp are folds over increasing indices; the arrays they write are functions
of the index.  This file holds the loop itself and the one fact the proofs need about it: passes that each touch their
own cells do not disturb one another.
-/

namespace Verif.Horiz

/-- `for (int t = 0; t < n; t++) s = body(t, s)`, the shape of every loop of
src/atm/HorizontalDynamicsFEM.cpp:208-2640. -/
def loop {σ : Type} (n : Nat) (body : Nat → σ → σ) (s : σ) : σ :=
  (List.range n).foldl (fun s t => body t s) s

/-- `array(x) = v`, an assignment to one cell of an array, as in src/atm/HorizontalDynamicsFEM.cpp:300-303. -/
def put {ι : Type} [DecidableEq ι] (s : ι → ℝ) (x : ι) (v : ℝ) : ι → ℝ := fun y => if y = x then v else s y

theorem loop_zero {σ : Type} (body : Nat → σ → σ) (s : σ) : loop 0 body s = s := rfl

theorem loop_succ {σ : Type} (n : Nat) (body : Nat → σ → σ) (s : σ) :
    loop (n + 1) body s = body n (loop n body s) := by
  unfold loop
  rw [List.range_succ, List.foldl_append]
  rfl

theorem loop_congr {σ : Type} (n : Nat) (body body' : Nat → σ → σ) (s : σ)
    (h : ∀ t, t < n → ∀ s, body t s = body' t s) : loop n body s = loop n body' s := by
  induction n with
  | zero => rfl
  | succ n ih => rw [loop_succ, loop_succ, ih (fun t ht => h t (by omega)), h n (by omega)]

/-- A loop that adds to an accumulator computes a sum. -/
theorem loop_add (n : Nat) (f : Nat → ℝ) (x : ℝ) :
    loop n (fun t acc => acc + f t) x = x + ∑ t ∈ Finset.range n, f t := by
  induction n with
  | zero => simp [loop_zero]
  | succ n ih => rw [loop_succ, ih, Finset.sum_range_succ]; ring

/-- A loop that subtracts from an accumulator computes the negative of a sum. -/
theorem loop_sub (n : Nat) (f : Nat → ℝ) (x : ℝ) :
    loop n (fun t acc => acc - f t) x = x - ∑ t ∈ Finset.range n, f t := by
  induction n with
  | zero => simp [loop_zero]
  | succ n ih => rw [loop_succ, ih, Finset.sum_range_succ]; ring

/-- The two nested loops over the nodes of an element. -/
theorem loop_add₂ (n m : Nat) (f : Nat → Nat → ℝ) (x : ℝ) :
    loop n (fun i acc => loop m (fun j acc => acc + f i j) acc) x =
      x + ∑ i ∈ Finset.range n, ∑ j ∈ Finset.range m, f i j := by
  rw [loop_congr n _ (fun i acc => acc + ∑ j ∈ Finset.range m, f i j) x (fun t _ s => loop_add m (f t) s), loop_add]

/-- `f` writes only cells of `T`, and what it writes there depends only on cells of `T`. -/
structure Touches {ι : Type} (f : (ι → ℝ) → ι → ℝ) (T : ι → Prop) : Prop where
  out : ∀ s x, ¬ T x → f s x = s x
  inn : ∀ s s' : ι → ℝ, (∀ x, T x → s x = s' x) → ∀ x, T x → f s x = f s' x

theorem Touches.mono {ι : Type} {f : (ι → ℝ) → ι → ℝ} {T T' : ι → Prop} (h : Touches f T)
    (hT : ∀ x, T' x ↔ T x) : Touches f T' := by
  refine ⟨fun s x hx => h.out s x (fun hx' => hx ((hT x).2 hx')), fun s s' he x hx => ?_⟩
  exact h.inn s s' (fun y hy => he y ((hT y).2 hy)) x ((hT x).1 hx)

theorem touches_put {ι : Type} [DecidableEq ι] (x : ι) (v : (ι → ℝ) → ℝ)
    (hv : ∀ s s' : ι → ℝ, s x = s' x → v s = v s') : Touches (fun s => put s x (v s)) (fun y => y = x) := by
  constructor
  · intro s y hy
    simp [put, hy]
  · rintro s s' he y rfl
    simp [put, hv s s' (he y rfl)]

theorem touches_id {ι : Type} (T : ι → Prop) : Touches (fun s : ι → ℝ => s) T :=
  ⟨fun _ _ _ => rfl, fun _ _ he x hx => he x hx⟩

/-- One after the other. -/
theorem Touches.comp {ι : Type} {f g : (ι → ℝ) → ι → ℝ} {T : ι → Prop} (hf : Touches f T) (hg : Touches g T) :
    Touches (fun s => g (f s)) T := by
  constructor
  · intro s x hx
    rw [hg.out _ _ hx, hf.out _ _ hx]
  · intro s s' he x hx
    exact hg.inn _ _ (fun y hy => hf.inn s s' he y hy) x hx

theorem loop_pass {ι : Type} (n : Nat) (body : Nat → (ι → ℝ) → ι → ℝ) (T : Nat → ι → Prop)
    (h : ∀ t, t < n → Touches (body t) (T t))
    (hd : ∀ t t', t < n → t' < n → ∀ x, T t x → T t' x → t = t') (s : ι → ℝ) :
    (∀ x, (∀ t, t < n → ¬ T t x) → loop n body s x = s x) ∧
      ∀ t, t < n → ∀ x, T t x → loop n body s x = body t s x := by
  induction n with
  | zero => exact ⟨fun x _ => rfl, fun t ht => absurd ht (by omega)⟩
  | succ n ih =>
    obtain ⟨i1, i2⟩ := ih (fun t ht => h t (by omega)) (fun t t' ht ht' => hd t t' (by omega) (by omega))
    constructor
    · intro x hx
      rw [loop_succ, (h n (by omega)).out _ _ (hx n (by omega)), i1 x (fun t ht => hx t (by omega))]
    · intro t ht x hx
      rw [loop_succ]
      by_cases he : t = n
      · subst he
        exact (h t ht).inn _ _ (fun y hy => i1 y (fun t' ht' hy' => by
          have := hd t t' ht (by omega) y hy hy'
          omega)) x hx
      · rw [(h n (by omega)).out _ _ (fun hx' => he (hd t n ht (by omega) x hx hx'))]
        exact i2 t (by omega) x hx

theorem loop_touches {ι : Type} (n : Nat) (body : Nat → (ι → ℝ) → ι → ℝ) (T : Nat → ι → Prop)
    (h : ∀ t, t < n → Touches (body t) (T t))
    (hd : ∀ t t', t < n → t' < n → ∀ x, T t x → T t' x → t = t') :
    Touches (loop n body) (fun x => ∃ t, t < n ∧ T t x) := by
  constructor
  · intro s x hx
    exact (loop_pass n body T h hd s).1 x (fun t ht hx' => hx ⟨t, ht, hx'⟩)
  · rintro s s' he x ⟨t, ht, hx⟩
    rw [(loop_pass n body T h hd s).2 t ht x hx, (loop_pass n body T h hd s').2 t ht x hx]
    exact (h t ht).inn s s' (fun y hy => he y ⟨t, ht, hy⟩) x hx

end Verif.Horiz
