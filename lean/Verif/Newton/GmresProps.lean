/-
C145: the Newton step by generalised minimal residuals and the iteration of
Newton steps.
-/
import Verif.Newton.Gmres
import Verif.Newton.BicgProps
import Mathlib.Tactic.LinearCombination

namespace Verif.Newton

open Finset

theorem givens_spec (a b : ℝ) :
    (givens a b).1 ^ 2 + (givens a b).2 ^ 2 = 1 ∧ -(givens a b).2 * a + (givens a b).1 * b = 0 ∧ (b = 0 → (givens a b).2 = 0) := by
  unfold givens
  by_cases hb : b = 0
  · simp [hb]
  · rw [if_neg hb]
    by_cases hab : |a| < |b|
    · rw [if_pos hab]
      dsimp only
      have hp : 0 < 1 + a / b * (a / b) := by nlinarith [mul_self_nonneg (a / b)]
      have hs : Real.sqrt (1 + a / b * (a / b)) ≠ 0 := (Real.sqrt_pos.2 hp).ne'
      have h2 := Real.sq_sqrt hp.le
      refine ⟨?_, ?_, fun h => absurd h hb⟩
      · have : (a / b * (1 / Real.sqrt (1 + a / b * (a / b)))) ^ 2 + (1 / Real.sqrt (1 + a / b * (a / b))) ^ 2
            = (1 + a / b * (a / b)) / Real.sqrt (1 + a / b * (a / b)) ^ 2 := by ring
        rw [this, h2, div_self hp.ne']
      · have : a / b * b = a := div_mul_cancel₀ a hb
        linear_combination (1 / Real.sqrt (1 + a / b * (a / b))) * this
    · rw [if_neg hab]
      dsimp only
      have ha : a ≠ 0 := by
        rintro rfl
        exact hab (by simpa using hb)
      have hp : 0 < 1 + b / a * (b / a) := by nlinarith [mul_self_nonneg (b / a)]
      have h2 := Real.sq_sqrt hp.le
      refine ⟨?_, ?_, fun h => absurd h hb⟩
      · have : (1 / Real.sqrt (1 + b / a * (b / a))) ^ 2 + (b / a * (1 / Real.sqrt (1 + b / a * (b / a)))) ^ 2
            = (1 + b / a * (b / a)) / Real.sqrt (1 + b / a * (b / a)) ^ 2 := by ring
        rw [this, h2, div_self hp.ne']
      · have : b / a * a = b := div_mul_cancel₀ b ha
        linear_combination -(1 / Real.sqrt (1 + b / a * (b / a))) * this

theorem backSubst_spec (H : Nat → Nat → ℝ) (k : Nat) : ∀ (y z : Nat → ℝ), backSubst H k y = some z →
    (∀ l, l < k → ∑ j ∈ range k, (if l ≤ j then H j l else 0) * z j = y l) ∧ ∀ l, k ≤ l → z l = y l := by
  induction k with
  | zero =>
    intro y z h
    simp only [backSubst, Option.some.injEq] at h
    subst h
    simp
  | succ k ih =>
    intro y z h
    unfold backSubst at h
    by_cases h0 : y k = 0
    · rw [if_pos h0] at h
      obtain ⟨h1, h2⟩ := ih y z h
      refine ⟨fun l hl => ?_, fun l hl => h2 l (by omega)⟩
      rw [sum_range_succ, h2 k le_rfl, h0, mul_zero, add_zero]
      rcases Nat.lt_succ_iff_lt_or_eq.1 hl with hl | rfl
      · exact h1 l hl
      · rw [h0]
        refine sum_eq_zero fun j hj => ?_
        rw [if_neg (by have := mem_range.1 hj; omega), zero_mul]
    · rw [if_neg h0] at h
      by_cases hd : H k k = 0
      · rw [if_pos hd] at h
        cases h
      · rw [if_neg hd] at h
        obtain ⟨h1, h2⟩ := ih _ z h
        have hk : z k = y k / H k k := by rw [h2 k le_rfl, if_pos rfl]
        refine ⟨fun l hl => ?_, fun l hl => ?_⟩
        · rw [sum_range_succ]
          rcases Nat.lt_succ_iff_lt_or_eq.1 hl with hl | rfl
          · rw [h1 l hl, if_neg (by omega), if_pos hl, if_pos (by omega), hk]
            ring
          · rw [if_pos le_rfl, hk, mul_div_cancel₀ _ hd]
            rw [sum_eq_zero, zero_add]
            intro j hj
            rw [if_neg (by have := mem_range.1 hj; omega), zero_mul]
        · rw [h2 l (by omega), if_neg (by omega), if_neg (by omega)]

section
variable {n : Nat}

theorem dot_axpy (a : ℝ) (x y z : Fin n → ℝ) : dot (axpy a x y) z = a * dot x z + dot y z := by
  unfold dot axpy
  rw [mul_sum, ← sum_add_distrib]
  exact sum_congr rfl fun j _ => by ring

theorem dot_comm (x y : Fin n → ℝ) : dot x y = dot y x := sum_congr rfl fun j _ => mul_comm _ _

theorem dot_smul (a : ℝ) (x z : Fin n → ℝ) : dot (fun j => a * x j) z = a * dot x z := by
  unfold dot
  rw [mul_sum]
  exact sum_congr rfl fun j _ => by ring

theorem dot_self (x : Fin n → ℝ) : 0 ≤ dot x x := sum_nonneg fun j _ => mul_self_nonneg _

theorem norm2_sq (x : Fin n → ℝ) : norm2 x * norm2 x = dot x x := Real.mul_self_sqrt (dot_self x)

theorem norm2_zero {x : Fin n → ℝ} (h : norm2 x = 0) (j : Fin n) : x j = 0 := by
  have : dot x x = 0 := by rw [← norm2_sq, h, mul_zero]
  unfold dot at this
  rw [sum_eq_zero_iff_of_nonneg fun j _ => mul_self_nonneg _] at this
  exact mul_self_eq_zero.1 (this j (mem_univ j))

/-- The rotated vector that is left after `k` rotations. -/
def zed (V : Nat → Fin n → ℝ) (cs sn : Nat → ℝ) : Nat → Fin n → ℝ
  | 0 => V 0
  | k + 1 => fun j => -sn k * zed V cs sn k j + cs k * V (k + 1) j

/-- The vector that rotation `k` leaves. -/
def pee (V : Nat → Fin n → ℝ) (cs sn : Nat → ℝ) (k : Nat) : Fin n → ℝ := fun j => cs k * zed V cs sn k j + sn k * V (k + 1) j

theorem zed_congr {V V' : Nat → Fin n → ℝ} {cs cs' sn sn' : Nat → ℝ} (k : Nat) (hV : ∀ l, l ≤ k → V l = V' l)
    (hc : ∀ l, l < k → cs l = cs' l) (hs : ∀ l, l < k → sn l = sn' l) : zed V cs sn k = zed V' cs' sn' k := by
  induction k with
  | zero => exact hV 0 le_rfl
  | succ k ih =>
    unfold zed
    rw [ih (fun l hl => hV l (by omega)) (fun l hl => hc l (by omega)) (fun l hl => hs l (by omega)), hV (k + 1) le_rfl,
      hc k (by omega), hs k (by omega)]

theorem carry_congr {h cs cs' sn sn' : Nat → ℝ} (k : Nat) (hc : ∀ l, l < k → cs l = cs' l) (hs : ∀ l, l < k → sn l = sn' l) :
    carry h cs sn k = carry h cs' sn' k := by
  induction k with
  | zero => rfl
  | succ k ih =>
    unfold carry
    rw [ih (fun l hl => hc l (by omega)) (fun l hl => hs l (by omega)), hc k (by omega), hs k (by omega)]

/-- Rotating the coefficients and the vectors leaves the combination. -/
theorem rotate (V : Nat → Fin n → ℝ) (h cs sn : Nat → ℝ) (j : Fin n) (k : Nat) (hr : ∀ l, l < k → cs l ^ 2 + sn l ^ 2 = 1) :
    (∑ l ∈ range k, (cs l * carry h cs sn l + sn l * h (l + 1)) * pee V cs sn l j) + carry h cs sn k * zed V cs sn k j
      = ∑ l ∈ range (k + 1), h l * V l j := by
  induction k with
  | zero => simp [carry, zed]
  | succ k ih =>
    rw [sum_range_succ _ (k + 1), ← ih fun l hl => hr l (by omega), sum_range_succ]
    have := hr k (by omega)
    simp only [carry, zed, pee]
    linear_combination (carry h cs sn k * zed V cs sn k j + h (k + 1) * V (k + 1) j) * this

theorem gram_sum (V : Nat → Fin n → ℝ) (w : Fin n → ℝ) (k : Nat) (j : Fin n) :
    w j = (∑ l ∈ range k, gramH V w l * V l j) + gramW V w k j := by
  induction k with
  | zero => simp [gramW]
  | succ k ih =>
    rw [sum_range_succ]
    simp only [gramW, gramH, axpy] at ih ⊢
    linarith

/-- The first `k` vectors are orthonormal. -/
def Ortho (V : Nat → Fin n → ℝ) (k : Nat) : Prop := ∀ a b, a < k → b < k → dot (V a) (V b) = if a = b then 1 else 0

theorem gram_ortho {V : Nat → Fin n → ℝ} {i : Nat} (hV : Ortho V i) (w : Fin n → ℝ) (k : Nat) (hk : k ≤ i) :
    ∀ l, l < k → dot (gramW V w k) (V l) = 0 := by
  induction k with
  | zero => intro l hl; omega
  | succ k ih =>
    intro l hl
    unfold gramW
    rw [dot_axpy, hV k l (by omega) (by omega)]
    by_cases h : k = l
    · subst h
      simp
    · rw [if_neg h, ih (by omega) l (by omega)]
      ring

theorem zed_ortho {V : Nat → Fin n → ℝ} {cs sn : Nat → ℝ} {i : Nat} (hV : Ortho V (i + 1)) (hr : ∀ l, l < i → cs l ^ 2 + sn l ^ 2 = 1)
    (k : Nat) (hk : k ≤ i) : (∀ l, k < l → l ≤ i → dot (zed V cs sn k) (V l) = 0) ∧ dot (zed V cs sn k) (zed V cs sn k) = 1 := by
  induction k with
  | zero =>
    refine ⟨fun l hl hi => ?_, ?_⟩
    · unfold zed
      rw [hV 0 l (by omega) (by omega), if_neg (by omega)]
    · unfold zed
      rw [hV 0 0 (by omega) (by omega), if_pos rfl]
  | succ k ih =>
    obtain ⟨h1, h2⟩ := ih (by omega)
    have hz : zed V cs sn (k + 1) = axpy (-sn k) (zed V cs sn k) (fun j => cs k * V (k + 1) j) := by
      funext j
      rfl
    refine ⟨fun l hl hi => ?_, ?_⟩
    · rw [hz, dot_axpy, dot_smul, h1 l (by omega) hi, hV (k + 1) l (by omega) (by omega), if_neg (by omega)]
      ring
    · have e1 : dot (zed V cs sn k) (V (k + 1)) = 0 := h1 (k + 1) (by omega) hk
      have e2 : dot (V (k + 1)) (V (k + 1)) = 1 := by rw [hV (k + 1) (k + 1) (by omega) (by omega), if_pos rfl]
      rw [hz, dot_axpy, dot_smul, dot_comm (zed V cs sn k), dot_comm (V (k + 1)), dot_axpy, dot_axpy, dot_smul, dot_smul, h2,
        dot_comm (V (k + 1)) (zed V cs sn k), e1, e2]
      linear_combination hr k (by omega)

/-- What holds before iteration `i`, for equations with matrix `a` and right hand side `f`. -/
structure Inv (a : Fin n → Fin n → ℝ) (f : Fin n → ℝ) (i : Nat) (K : Krylov n) : Prop where
  ortho : Ortho K.V (i + 1)
  unit : ∀ l, l < i → K.cs l ^ 2 + K.sn l ^ 2 = 1
  rhs : ∀ j, f j = (∑ k ∈ range i, K.s k * pee K.V K.cs K.sn k j) + K.s i * zed K.V K.cs K.sn i j
  cols : ∀ c, c < i → ∀ j, ∑ l, a j l * K.V c l = ∑ k ∈ range (c + 1), K.H c k * pee K.V K.cs K.sn k j

variable {S : Solver n} {a : Fin n → Fin n → ℝ} {b : Fin n → ℝ}

theorem next_V {x : Fin n → ℝ} {i : Nat} {K : Krylov n} (l : Nat) (hl : l ≤ i) : (K.next S x i).V l = K.V l := by
  simp only [Krylov.next]
  rw [Function.update_of_ne (by omega)]

theorem next_cs {x : Fin n → ℝ} {i : Nat} {K : Krylov n} (l : Nat) (hl : l < i) :
    (K.next S x i).cs l = K.cs l ∧ (K.next S x i).sn l = K.sn l ∧ (K.next S x i).H l = K.H l ∧ (K.next S x i).s l = K.s l := by
  simp only [Krylov.next]
  rw [Function.update_of_ne (by omega), Function.update_of_ne (by omega), Function.update_of_ne (by omega),
    Function.update_of_ne (by omega), Function.update_of_ne (by omega)]
  exact ⟨rfl, rfl, rfl, rfl⟩

theorem next_pee {x : Fin n → ℝ} {i : Nat} {K : Krylov n} (l : Nat) (hl : l < i) :
    pee (K.next S x i).V (K.next S x i).cs (K.next S x i).sn l = pee K.V K.cs K.sn l := by
  unfold pee
  rw [zed_congr (V := (K.next S x i).V) (V' := K.V) (cs' := K.cs) (sn' := K.sn) l (fun m hm => next_V m (by omega))
    (fun m hm => (next_cs m (by omega)).1) (fun m hm => (next_cs m (by omega)).2.1), (next_cs l hl).1, (next_cs l hl).2.1,
    next_V (l + 1) (by omega)]

theorem next_zed {x : Fin n → ℝ} {i : Nat} {K : Krylov n} :
    zed (K.next S x i).V (K.next S x i).cs (K.next S x i).sn i = zed K.V K.cs K.sn i :=
  zed_congr i (fun m hm => next_V m (by omega)) (fun m hm => (next_cs m (by omega)).1) (fun m hm => (next_cs m (by omega)).2.1)

/-- What holds after iteration `i`, but for the new vector. -/
theorem next_inv (h : Affine S.eval a b) (he : S.eps ≠ 0) (x f : Fin n → ℝ) {i : Nat} {K : Krylov n} (I : Inv a f i K) :
    (∀ l, l < i + 1 → (K.next S x i).cs l ^ 2 + (K.next S x i).sn l ^ 2 = 1) ∧
    (∀ j, f j = (∑ k ∈ range (i + 1), (K.next S x i).s k * pee (K.next S x i).V (K.next S x i).cs (K.next S x i).sn k j)
      + (K.next S x i).s (i + 1) * zed (K.next S x i).V (K.next S x i).cs (K.next S x i).sn (i + 1) j) ∧
    (∀ c, c < i + 1 → ∀ j, ∑ l, a j l * (K.next S x i).V c l
      = ∑ k ∈ range (c + 1), (K.next S x i).H c k * pee (K.next S x i).V (K.next S x i).cs (K.next S x i).sn k j) ∧
    (K.length S x i ≠ 0 → Ortho (K.next S x i).V (i + 2)) ∧
    (K.length S x i = 0 → (K.next S x i).s (i + 1) = 0) := by
  obtain ⟨L, hL⟩ : ∃ L, L = K.next S x i := ⟨_, rfl⟩
  obtain ⟨w, hw⟩ : ∃ w, w = S.along x (K.V i) := ⟨_, rfl⟩
  obtain ⟨u, hu⟩ : ∃ u, u = carry (gramH K.V w) K.cs K.sn := ⟨_, rfl⟩
  obtain ⟨g1, g2, g3⟩ := givens_spec (u i) (K.length S x i)
  have hcs : L.cs i = (givens (u i) (K.length S x i)).1 := by rw [hL, hu, hw]; simp [Krylov.next]
  have hsn : L.sn i = (givens (u i) (K.length S x i)).2 := by rw [hL, hu, hw]; simp [Krylov.next]
  rw [← hcs, ← hsn] at g1
  rw [← hcs, ← hsn] at g2
  rw [← hsn] at g3
  have hs0 : L.s i = L.cs i * K.s i := by rw [hcs, hL, hu, hw]; simp [Krylov.next]
  have hs1 : L.s (i + 1) = -L.sn i * K.s i := by
    rw [hsn, hL, hu, hw]
    simp [Krylov.next, Function.update_of_ne]
  have hV1 : ∀ j, L.V (i + 1) j = 1 / K.length S x i * gramW K.V w (i + 1) j := by
    intro j
    rw [hL, hw]
    simp [Krylov.next]
  have hH : ∀ k, L.H i k = if k < i then K.cs k * u k + K.sn k * gramH K.V w (k + 1) else L.cs i * u i + L.sn i * K.length S x i := by
    intro k
    rw [hcs, hsn, hL, hu, hw]
    simp [Krylov.next]
  have hpee : ∀ l, l < i → pee L.V L.cs L.sn l = pee K.V K.cs K.sn l := by rw [hL]; exact next_pee
  have hzed : zed L.V L.cs L.sn i = zed K.V K.cs K.sn i := by rw [hL]; exact next_zed
  have hVk : ∀ l, l ≤ i → L.V l = K.V l := by rw [hL]; exact next_V
  have hck : ∀ l, l < i → L.cs l = K.cs l ∧ L.sn l = K.sn l ∧ L.H l = K.H l ∧ L.s l = K.s l := by rw [hL]; exact next_cs
  rw [← hL]
  have hlen : ∀ j, gramW K.V w (i + 1) j = K.length S x i * L.V (i + 1) j := by
    intro j
    rw [hV1]
    by_cases hz : K.length S x i = 0
    · have : norm2 (gramW K.V w (i + 1)) = 0 := by rw [hw]; exact hz
      rw [norm2_zero this, hz]
      ring
    · field_simp
  refine ⟨fun l hl => ?_, fun j => ?_, fun c hc j => ?_, fun hz => ?_, fun hz => ?_⟩
  · rcases Nat.lt_succ_iff_lt_or_eq.1 hl with hl | rfl
    · rw [(hck l hl).1, (hck l hl).2.1]
      exact I.unit l hl
    · exact g1
  · rw [I.rhs j, sum_range_succ, hs0, hs1]
    have : ∑ k ∈ range i, L.s k * pee L.V L.cs L.sn k j = ∑ k ∈ range i, K.s k * pee K.V K.cs K.sn k j := by
      refine sum_congr rfl fun k hk => ?_
      have hk := mem_range.1 hk
      rw [hpee k hk, (hck k hk).2.2.2]
    rw [this, ← hzed]
    simp only [pee, zed]
    linear_combination -(K.s i * zed L.V L.cs L.sn i j) * g1
  · rcases Nat.lt_succ_iff_lt_or_eq.1 hc with hc | rfl
    · rw [hVk c hc.le, (hck c hc).2.2.1, I.cols c hc j]
      refine sum_congr rfl fun k hk => ?_
      have hk := mem_range.1 hk
      rw [hpee k (by omega)]
    · rw [hVk c le_rfl, ← along_affine h he x, ← hw, gram_sum K.V w (c + 1) j, hlen,
        ← rotate K.V (gramH K.V w) K.cs K.sn j c I.unit, ← hu, sum_range_succ, hH c, if_neg (by omega)]
      have : ∑ k ∈ range c, L.H c k * pee L.V L.cs L.sn k j
          = ∑ l ∈ range c, (K.cs l * u l + K.sn l * gramH K.V w (l + 1)) * pee K.V K.cs K.sn l j := by
        refine sum_congr rfl fun k hk => ?_
        have hk := mem_range.1 hk
        rw [hpee k hk, hH, if_pos hk]
      rw [this, ← hzed]
      simp only [pee]
      linear_combination (-(u c * zed L.V L.cs L.sn c j) - K.length S x c * L.V (c + 1) j) * g1
        + (-L.sn c * zed L.V L.cs L.sn c j + L.cs c * L.V (c + 1) j) * g2
  · have hperp : ∀ l, l ≤ i → dot (L.V (i + 1)) (L.V l) = 0 := by
      intro l hl
      have : L.V (i + 1) = fun j => 1 / K.length S x i * gramW K.V w (i + 1) j := funext hV1
      rw [this, hVk l hl, dot_smul, gram_ortho I.ortho w (i + 1) le_rfl l (by omega), mul_zero]
    have hone : dot (L.V (i + 1)) (L.V (i + 1)) = 1 := by
      have : L.V (i + 1) = fun j => 1 / K.length S x i * gramW K.V w (i + 1) j := funext hV1
      rw [this, dot_smul, dot_comm, dot_smul, ← norm2_sq]
      have e : norm2 (gramW K.V w (i + 1)) = K.length S x i := by rw [hw]; rfl
      rw [e]
      field_simp
    intro p q hp hq
    rcases Nat.lt_succ_iff_lt_or_eq.1 hp with hp | rfl
    · rcases Nat.lt_succ_iff_lt_or_eq.1 hq with hq | rfl
      · rw [hVk p (by omega), hVk q (by omega)]
        exact I.ortho p q hp hq
      · rw [dot_comm, hperp p (by omega), if_neg (by omega)]
    · rcases Nat.lt_succ_iff_lt_or_eq.1 hq with hq | rfl
      · rw [hperp q (by omega), if_neg (by omega)]
      · rw [hone, if_pos rfl]
  · rw [hs1, g3 hz]
    ring

theorem foldl_sum (y : Nat → ℝ) (V : Nat → Fin n → ℝ) (c : Fin n) (k : Nat) :
    (List.range k).foldl (fun g j => y j * V j c + g) 0 = ∑ j ∈ range k, y j * V j c := by
  induction k with
  | zero => simp
  | succ k ih => rw [List.range_succ, List.foldl_append, ih, sum_range_succ]; simp; ring

theorem cycle_residual (h : Affine S.eval a b) (he : S.eps ≠ 0) (x f : Fin n → ℝ) (bn tol : ℝ) (left : Nat) :
    ∀ (i : Nat) (K : Krylov n) (g : Fin n → ℝ) (e : ℝ), Inv a f i K → Krylov.cycle S x bn tol left i K = .ret (g, e) →
      e ≤ tol ∧ e = Real.sqrt (∑ j, (f j - ∑ l, a j l * g l) ^ 2) * (1 / bn) := by
  induction left with
  | zero => intro i K g e I hc; cases hc
  | succ left ih =>
    intro i K g e I hc
    obtain ⟨n1, n2, n3, n4, n5⟩ := next_inv h he x f I
    unfold Krylov.cycle at hc
    dsimp only at hc
    by_cases ht : |(K.next S x i).s (i + 1)| * (1 / bn) ≤ tol
    · rw [if_pos ht] at hc
      cases hb : backSubst (K.next S x i).H (i + 1) (K.next S x i).s with
      | none => simp [hb] at hc
      | some y =>
        simp only [hb, Out.ret.injEq, Prod.mk.injEq] at hc
        obtain ⟨hg, rfl⟩ := hc
        refine ⟨ht, ?_⟩
        obtain ⟨L, hL⟩ : ∃ L, L = K.next S x i := ⟨_, rfl⟩
        rw [← hL] at n1 n2 n3 n4 n5 hb hg ⊢
        have hy := (backSubst_spec _ _ _ _ hb).1
        have hres : ∀ j, f j - ∑ l, a j l * g l = L.s (i + 1) * zed L.V L.cs L.sn (i + 1) j := by
          intro j
          have e1 : ∑ l, a j l * g l = ∑ c ∈ range (i + 1), y c * ∑ l, a j l * L.V c l := by
            rw [← hg]
            simp only [foldl_sum, mul_sum]
            rw [sum_comm]
            refine sum_congr rfl fun c _ => sum_congr rfl fun l _ => by ring
          have e2 : ∑ c ∈ range (i + 1), y c * ∑ l, a j l * L.V c l
              = ∑ c ∈ range (i + 1), ∑ k ∈ range (i + 1), (if k ≤ c then L.H c k else 0) * y c * pee L.V L.cs L.sn k j := by
            refine sum_congr rfl fun c hc => ?_
            have hc := mem_range.1 hc
            rw [n3 c hc j, mul_sum]
            have : range (c + 1) ⊆ range (i + 1) := range_subset_range.2 (by omega)
            rw [← sum_subset this]
            · refine sum_congr rfl fun k hk => ?_
              rw [if_pos (by have := mem_range.1 hk; omega)]
              ring
            · intro k _ hk
              rw [if_neg (by rw [mem_range] at hk; omega)]
              ring
          rw [e1, e2, sum_comm, n2 j]
          have e3 : ∑ k ∈ range (i + 1), ∑ c ∈ range (i + 1), (if k ≤ c then L.H c k else 0) * y c * pee L.V L.cs L.sn k j
              = ∑ k ∈ range (i + 1), L.s k * pee L.V L.cs L.sn k j := by
            refine sum_congr rfl fun k hk => ?_
            rw [← sum_mul, hy k (mem_range.1 hk)]
          rw [e3]
          ring
        congr 1
        simp only [hres]
        by_cases hz : K.length S x i = 0
        · rw [n5 hz]
          simp
        · have hn := (zed_ortho (cs := L.cs) (sn := L.sn) (n4 hz) n1 (i + 1) le_rfl).2
          have : ∑ j, (L.s (i + 1) * zed L.V L.cs L.sn (i + 1) j) ^ 2 = L.s (i + 1) ^ 2 := by
            have e4 : ∑ j, (L.s (i + 1) * zed L.V L.cs L.sn (i + 1) j) ^ 2
                = L.s (i + 1) ^ 2 * dot (zed L.V L.cs L.sn (i + 1)) (zed L.V L.cs L.sn (i + 1)) := by
              unfold dot
              rw [mul_sum]
              exact sum_congr rfl fun j _ => by ring
            rw [e4, hn, mul_one]
          rw [this, Real.sqrt_sq_eq_abs]
    · rw [if_neg ht] at hc
      by_cases hz : K.length S x i = 0
      · rw [if_pos hz] at hc
        cases hc
      · rw [if_neg hz] at hc
        exact ih (i + 1) _ g e ⟨n4 hz, n1, n2, n3⟩ hc

theorem norm2_misfit (f : (Fin n → ℝ) → Fin n → ℝ) (x : Fin n → ℝ) : norm2 (f x) = Real.sqrt (misfit f x) := by
  unfold norm2 misfit dot
  congr 1
  exact sum_congr rfl fun j _ => by ring

theorem start_inv {f : Fin n → ℝ} (hf : norm2 f ≠ 0) (a : Fin n → Fin n → ℝ) : Inv a f 0 (Krylov.start f) where
  ortho := by
    intro p q hp hq
    have hp : p = 0 := by omega
    have hq : q = 0 := by omega
    subst hp
    subst hq
    rw [if_pos rfl]
    simp only [Krylov.start]
    rw [dot_smul, dot_comm, dot_smul, ← norm2_sq]
    field_simp
  unit := by intro l hl; omega
  rhs := by
    intro j
    simp only [Krylov.start, zed, range_zero, sum_empty, zero_add, if_true]
    field_simp
  cols := by intro c hc; omega

/-- C145: for linear equations, a step that returns leaves the state where almost nothing is left of the equations, and
otherwise returns by how much it has reduced the length of what is left, at most the tolerance. -/
theorem C145_residual (h : Affine S.eval a b) (x y : Fin n → ℝ) (maxIter : Int) (tol e : ℝ)
    (hs : gmresStep S x maxIter tol = .ret (y, e)) :
    (Real.sqrt (misfit S.eval x) < 1 / 10 ^ 14 ∧ y = x ∧ e = 0) ∨
    (1 / 10 ^ 14 ≤ Real.sqrt (misfit S.eval x) ∧ e ≤ tol ∧ Real.sqrt (misfit S.eval y) = e * Real.sqrt (misfit S.eval x)) := by
  unfold gmresStep at hs
  dsimp only at hs
  have habs : |norm2 (S.eval x)| = norm2 (S.eval x) := abs_of_nonneg (Real.sqrt_nonneg _)
  rw [habs] at hs
  rw [← norm2_misfit, ← norm2_misfit]
  by_cases h1 : norm2 (S.eval x) < 1 / 10 ^ 14
  · rw [if_pos h1] at hs
    simp only [Out.ret.injEq, Prod.mk.injEq] at hs
    exact Or.inl ⟨h1, hs.1.symm, hs.2.symm⟩
  · rw [if_neg h1] at hs
    have hp : 0 < norm2 (S.eval x) := lt_of_lt_of_le (by positivity) (not_lt.1 h1)
    refine Or.inr ⟨not_lt.1 h1, ?_⟩
    by_cases h2 : maxIter ≤ 0
    · rw [if_pos h2] at hs
      cases hs
    rw [if_neg h2] at hs
    by_cases h3 : norm2 (S.eval x) * (1 / norm2 (S.eval x)) ≤ tol
    · rw [if_pos h3] at hs
      simp only [Out.ret.injEq, Prod.mk.injEq, sub_zero] at hs
      obtain ⟨rfl, rfl⟩ := hs
      refine ⟨h3, ?_⟩
      field_simp
    rw [if_neg h3] at hs
    by_cases h4 : S.eps = 0
    · rw [if_pos h4] at hs
      cases hs
    rw [if_neg h4] at hs
    cases hc : Krylov.cycle S x (norm2 (S.eval x)) tol (S.iter - 1) 0 (Krylov.start (S.eval x)) with
    | thrown => simp [hc] at hs
    | undefined => simp [hc] at hs
    | ret q =>
      obtain ⟨g, e'⟩ := q
      simp only [hc, Out.ret.injEq, Prod.mk.injEq] at hs
      obtain ⟨rfl, rfl⟩ := hs
      obtain ⟨r1, r2⟩ := cycle_residual h h4 x (S.eval x) _ tol _ 0 _ g e' (start_inv hp.ne' a) hc
      refine ⟨r1, ?_⟩
      rw [r2, norm2_misfit]
      unfold misfit
      simp only [affine_sub h]
      field_simp

theorem gmres_bound (x y : Fin n → ℝ) (maxIter : Int) (tol e : ℝ) (hs : gmresStep S x maxIter tol = .ret (y, e)) :
    e = 0 ∨ e ≤ tol := by
  have hcyc : ∀ (left i : Nat) (K : Krylov n) (bn : ℝ) (g : Fin n → ℝ) (e : ℝ),
      Krylov.cycle S x bn tol left i K = .ret (g, e) → e ≤ tol := by
    intro left
    induction left with
    | zero => intro i K bn g e hc; cases hc
    | succ left ih =>
      intro i K bn g e hc
      unfold Krylov.cycle at hc
      dsimp only at hc
      by_cases ht : |(K.next S x i).s (i + 1)| * (1 / bn) ≤ tol
      · rw [if_pos ht] at hc
        cases hb : backSubst (K.next S x i).H (i + 1) (K.next S x i).s with
        | none => simp [hb] at hc
        | some y =>
          simp only [hb, Out.ret.injEq, Prod.mk.injEq] at hc
          rw [← hc.2]
          exact ht
      · rw [if_neg ht] at hc
        by_cases hz : K.length S x i = 0
        · rw [if_pos hz] at hc
          cases hc
        · rw [if_neg hz] at hc
          exact ih _ _ _ _ _ hc
  unfold gmresStep at hs
  dsimp only at hs
  by_cases h1 : |norm2 (S.eval x)| < 1 / 10 ^ 14
  · rw [if_pos h1] at hs
    simp only [Out.ret.injEq, Prod.mk.injEq] at hs
    exact Or.inl hs.2.symm
  rw [if_neg h1] at hs
  by_cases h2 : maxIter ≤ 0
  · rw [if_pos h2] at hs
    cases hs
  rw [if_neg h2] at hs
  by_cases h3 : norm2 (S.eval x) * (1 / norm2 (S.eval x)) ≤ tol
  · rw [if_pos h3] at hs
    simp only [Out.ret.injEq, Prod.mk.injEq] at hs
    exact Or.inr (hs.2 ▸ h3)
  rw [if_neg h3] at hs
  by_cases h4 : S.eps = 0
  · rw [if_pos h4] at hs
    cases hs
  rw [if_neg h4] at hs
  cases hc : Krylov.cycle S x (norm2 (S.eval x)) tol (S.iter - 1) 0 (Krylov.start (S.eval x)) with
  | thrown => simp [hc] at hs
  | undefined => simp [hc] at hs
  | ret q =>
    obtain ⟨g, e'⟩ := q
    simp only [hc, Out.ret.injEq, Prod.mk.injEq] at hs
    rw [← hs.2]
    exact Or.inr (hcyc _ _ _ _ _ _ hc)

/-- C145: where almost nothing is left of the equations the step leaves the state as it is. -/
theorem C145_kept (x : Fin n → ℝ) (hx : Real.sqrt (misfit S.eval x) < 1 / 10 ^ 14) (maxIter : Int) (tol : ℝ) :
    gmresStep S x maxIter tol = .ret (x, 0) := by
  unfold gmresStep
  dsimp only
  rw [norm2_misfit, abs_of_nonneg (Real.sqrt_nonneg _), if_pos hx]

/-- C145, that a step is done, is false with one iteration per restart (with one equation, say): every step that has
anything to do assigns behind the end of an array. -/
theorem C145_outside (hi : S.iter ≤ 1) (x : Fin n → ℝ) (hx : 1 / 10 ^ 14 ≤ Real.sqrt (misfit S.eval x)) (maxIter : Int) (tol : ℝ)
    (ht : tol < 1) : gmresStep S x maxIter tol = .undefined := by
  unfold gmresStep
  dsimp only
  have hp : 0 < Real.sqrt (misfit S.eval x) := lt_of_lt_of_le (by positivity) hx
  rw [norm2_misfit, abs_of_nonneg (Real.sqrt_nonneg _), if_neg (not_lt.2 hx)]
  by_cases h2 : maxIter ≤ 0
  · rw [if_pos h2]
  rw [if_neg h2, mul_one_div_cancel hp.ne', if_neg (not_le.2 ht)]
  by_cases h4 : S.eps = 0
  · rw [if_pos h4]
  rw [if_neg h4, Nat.sub_eq_zero_of_le hi]
  rfl

/-- C145: iteration stops at the first step whose returned value is below the tolerance; as this is the reduction of the
step and not a length of the equations, with a tolerance of the step below that of the solution it stops after the
first step, whatever is left of the equations. -/
theorem C145_one_step (x : Fin n → ℝ) (maxIter : Int) (hm : 0 < maxIter) (solnTol : ℝ) (gIter : Int) (gTol : ℝ)
    (h0 : 0 < solnTol) (ht : gTol < solnTol) (y : Fin n → ℝ) (e : ℝ) (hs : gmresStep S x gIter gTol = .ret (y, e)) :
    newton S x maxIter solnTol gIter gTol = .ret (y, true) := by
  unfold newton
  rw [if_neg (by omega)]
  obtain ⟨k, hk⟩ : ∃ k, maxIter.toNat = k + 1 := ⟨maxIter.toNat - 1, by omega⟩
  rw [hk]
  unfold newtonLoop
  rw [hs]
  dsimp only
  rw [if_pos]
  rcases gmres_bound x y gIter gTol e hs with rfl | he
  · exact h0
  · exact he.trans_lt ht

/-- C145, that success is reported only after a step, is false: a negative number of steps does nothing and reports success;
no steps report failure. -/
theorem C145_no_step (x : Fin n → ℝ) (solnTol : ℝ) (gIter : Int) (gTol : ℝ) :
    (∀ m : Int, m < 0 → newton S x m solnTol gIter gTol = .ret (x, true)) ∧ newton S x 0 solnTol gIter gTol = .ret (x, false) := by
  refine ⟨fun m hm => ?_, ?_⟩
  · unfold newton
    rw [if_pos hm]
  · unfold newton
    rw [if_neg (by omega)]
    rfl

/-- C145: success, for linear equations and a number of steps that is not negative, means that the last step left almost
nothing or reduced what was left by the tolerance. -/
theorem C145_success (h : Affine S.eval a b) (maxIter : Int) (hm : 0 ≤ maxIter) (solnTol : ℝ) (gIter : Int) (gTol : ℝ) (x y : Fin n → ℝ)
    (hs : newton S x maxIter solnTol gIter gTol = .ret (y, true)) :
    Real.sqrt (misfit S.eval y) < 1 / 10 ^ 14 ∨
      ∃ (z : Fin n → ℝ) (e : ℝ), e < solnTol ∧ gmresStep S z gIter gTol = .ret (y, e) ∧
        Real.sqrt (misfit S.eval y) = e * Real.sqrt (misfit S.eval z) := by
  unfold newton at hs
  rw [if_neg (by omega)] at hs
  generalize maxIter.toNat = k at hs
  induction k generalizing x with
  | zero => simp [newtonLoop] at hs
  | succ k ih =>
    unfold newtonLoop at hs
    cases hg : gmresStep S x gIter gTol with
    | thrown => simp [hg] at hs
    | undefined => simp [hg] at hs
    | ret q =>
      obtain ⟨y', e⟩ := q
      simp only [hg] at hs
      by_cases he : e < solnTol
      · rw [if_pos he] at hs
        simp only [Out.ret.injEq, Prod.mk.injEq, and_true] at hs
        subst hs
        rcases C145_residual h x y' gIter gTol e hg with ⟨h1, h2, h3⟩ | ⟨_, _, h3⟩
        · left
          rw [h2]
          exact h1
        · right
          exact ⟨x, e, he, hg, h3⟩
      · rw [if_neg he] at hs
        exact ih y' hs

end

theorem gmres_single (S : Solver 1) (hi : 2 ≤ S.iter) (he : S.eps ≠ 0) (x : Fin 1 → ℝ) (f c : ℝ) (hf : S.eval x = fun _ => f)
    (hx : 1 / 10 ^ 14 ≤ |f|) (hc : c ≠ 0) (hal : S.along x (fun _ => 1 / |f| * f) = fun _ => c * (1 / |f| * f)) (maxIter : Int)
    (hm : 0 < maxIter) (tol : ℝ) (h0 : 0 ≤ tol) (h1 : tol < 1) :
    gmresStep S x maxIter tol = .ret (fun _ => x 0 - f / c, 0) := by
  have hp : 0 < |f| := lt_of_lt_of_le (by positivity) hx
  have hn : norm2 (S.eval x) = |f| := by
    rw [hf]
    simp [norm2, dot, Real.sqrt_mul_self_eq_abs]
  have hff : |f| * |f| = f * f := abs_mul_abs_self f
  have hone : (1 / |f| * f) * (1 / |f| * f) = 1 := by
    field_simp
    nlinarith
  obtain ⟨K, hK⟩ : ∃ K, K = Krylov.start (S.eval x) := ⟨_, rfl⟩
  have hV : K.V 0 = fun _ => 1 / |f| * f := by
    rw [hK]
    simp only [Krylov.start, hn]
    rw [hf]
  have hw : S.along x (K.V 0) = fun _ => c * (1 / |f| * f) := by rw [hV, hal]
  have hd : dot (S.along x (K.V 0)) (K.V 0) = c := by
    rw [hw, hV]
    simp only [dot, Finset.univ_unique, Finset.sum_singleton]
    linear_combination c * hone
  have hlen : K.length S x 0 = 0 := by
    unfold Krylov.length norm2
    have : gramW K.V (S.along x (K.V 0)) (0 + 1) = fun _ => 0 := by
      funext j
      simp only [gramW]
      rw [hd, hw, hV]
      simp only [axpy]
      ring
    rw [this]
    simp [dot]
  have hu : carry (gramH K.V (S.along x (K.V 0))) K.cs K.sn 0 = c := by
    simp only [carry, gramH, gramW]
    exact hd
  have hs0 : K.s 0 = |f| := by
    rw [hK]
    simp [Krylov.start, hn]
  have hgv : givens c 0 = (1, 0) := by simp [givens]
  have hLs0 : (K.next S x 0).s 0 = |f| := by simp [Krylov.next, hlen, hu, hgv, hs0]
  have hLs1 : (K.next S x 0).s (0 + 1) = 0 := by simp [Krylov.next, hlen, hu, hgv]
  have hLH : (K.next S x 0).H 0 0 = c := by simp [Krylov.next, hlen, hu, hgv]
  have hLV : (K.next S x 0).V 0 = fun _ => 1 / |f| * f := by rw [next_V 0 le_rfl, hV]
  obtain ⟨m, hm2⟩ : ∃ m, S.iter - 1 = m + 1 := ⟨S.iter - 2, by omega⟩
  have hcyc : Krylov.cycle S x |f| tol (m + 1) 0 K = .ret (fun _ => f / c, 0) := by
    unfold Krylov.cycle
    dsimp only
    rw [hLs1, if_pos (by simpa using h0)]
    have hb : backSubst (K.next S x 0).H (0 + 1) (K.next S x 0).s
        = some (fun l => if l = 0 then |f| / c else if l < 0 then (K.next S x 0).s l - |f| / c * (K.next S x 0).H 0 l
          else (K.next S x 0).s l) := by
      unfold backSubst
      rw [hLs0, if_neg hp.ne', hLH, if_neg hc]
      rfl
    rw [hb]
    dsimp only
    simp only [foldl_sum, Finset.range_one, Finset.sum_singleton, hLV, if_true, Finset.sum_range_one, zero_add, abs_zero, zero_mul,
      Out.ret.injEq, Prod.mk.injEq, and_true]
    funext j
    field_simp
  unfold gmresStep
  dsimp only
  rw [hn, abs_abs, if_neg (not_lt.2 hx), if_neg (by omega), mul_one_div_cancel hp.ne', if_neg (not_le.2 h1), if_neg he, hm2, ← hK, hcyc]
  dsimp only
  congr 2
  funext j
  have : x j = x 0 := by fin_cases j; rfl
  rw [this]

/-- C145: with more than one iteration per restart one linear equation is solved by one step. -/
theorem C145_single (S : Solver 1) (hi : 2 ≤ S.iter) (he : S.eps ≠ 0) (c d : ℝ) (hc : c ≠ 0) (hS : ∀ x, S.eval x 0 = c * x 0 + d)
    (x : Fin 1 → ℝ) (hx : 1 / 10 ^ 14 ≤ |c * x 0 + d|) (maxIter : Int) (hm : 0 < maxIter) (tol : ℝ) (h0 : 0 ≤ tol) (h1 : tol < 1) :
    gmresStep S x maxIter tol = .ret (fun _ => -d / c, 0) := by
  have hf : S.eval x = fun _ => c * x 0 + d := by funext j; fin_cases j; exact hS x
  rw [gmres_single S hi he x (c * x 0 + d) c hf hx hc ?_ maxIter hm tol h0 h1]
  · congr 2
    funext j
    field_simp
    ring
  · funext j
    unfold Solver.along
    fin_cases j
    simp only [Fin.zero_eta, hS, axpy]
    rw [div_eq_iff he]
    ring

/-- C145, that success means a solution, is false: of `x² = 0` from `1`, success is reported at `2/3`, for every tolerance
of the solution however small. -/
theorem C145_success_false (solnTol : ℝ) (h : 0 < solnTol) :
    newton (⟨2, 1, fun x _ => x 0 ^ 2⟩ : Solver 1) (fun _ => 1) 10 solnTol 10 0 = .ret (fun _ => 2 / 3, true) := by
  have hs := gmres_single (⟨2, 1, fun x _ => x 0 ^ 2⟩ : Solver 1) le_rfl one_ne_zero (fun _ => 1) 1 3 (by funext j; norm_num)
    (by norm_num) (by norm_num) (by funext j; norm_num [Solver.along, axpy]) 10 (by norm_num) 0 le_rfl one_pos
  have := C145_one_step (S := (⟨2, 1, fun x _ => x 0 ^ 2⟩ : Solver 1)) (fun _ => 1) 10 (by norm_num) solnTol 10 0 h h _ 0 hs
  rw [this]
  congr 2
  funext j
  norm_num

/-- One equation meets the hypotheses: `3 x + 6 = 0` from `x = 1`. -/
example : gmresStep (⟨2, 1 / 100000, fun x _ => 3 * x 0 + 6⟩ : Solver 1) (fun _ => 1) 5 (1 / 10) = .ret (fun _ => -6 / 3, 0) :=
  C145_single _ le_rfl (by norm_num) 3 6 (by norm_num) (fun _ => rfl) _ (by norm_num) 5 (by norm_num) _ (by norm_num) (by norm_num)

end Verif.Newton
