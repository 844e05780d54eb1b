import Verif.Physics.TerminatorProps

/-!
# C114: the chemistry of chlorine in a patch

The loops of `TerminatorPhysics::Perform` use the subscripts in the order of level, first and second coordinate, while
the arrays are ordered by first coordinate, second coordinate and level.
-/

namespace Verif.Physics

open Real

/-! ### Vocabulary -/

/-- Subscripts used in the wrong order stay within the sizes of the arrays they are used for. -/
structure Site.Fits (P : Site) : Prop where
  tracers : 5 ≤ P.tracers
  a : P.aEnd ≤ P.na
  b : P.bEnd ≤ P.nb
  first : P.levels ≤ P.na
  second : P.aEnd ≤ P.nb
  third : P.bEnd ≤ P.levels

/-- The value of component `c` in the column `x`, `y` at level `z`, in an array whose order is that of
`place`. -/
def Site.value (P : Site) (m : Nat → ℝ) (c x y z : Nat) : ℝ := m (((c * P.na + x) * P.nb + y) * P.levels + z)

/-- The process performed once for each of a number of time steps. -/
noncomputable def performs (P : Site) (dts : List ℝ) (m : Nat → ℝ) : Except Fault (Nat → ℝ) :=
  dts.foldlM (fun m dt => perform P dt m) m

/-! ### Lemmas -/

theorem digits {n a b a' b' : Nat} (hb : b < n) (hb' : b' < n) (h : a * n + b = a' * n + b') : a = a' ∧ b = b' := by
  have hn : 0 < n := by omega
  have h1 : (a * n + b) / n = a := by rw [Nat.add_comm, Nat.add_mul_div_right _ _ hn, Nat.div_eq_of_lt hb, Nat.zero_add]
  have h2 : (a' * n + b') / n = a' := by
    rw [Nat.add_comm, Nat.add_mul_div_right _ _ hn, Nat.div_eq_of_lt hb', Nat.zero_add]
  have e : a = a' := by rw [← h1, h, h2]
  subst e
  exact ⟨rfl, by omega⟩

theorem place_inj (P : Site) {c x y z c' x' y' z' : Nat} (hx : x < P.na) (hy : y < P.nb) (hz : z < P.levels)
    (hx' : x' < P.na) (hy' : y' < P.nb) (hz' : z' < P.levels) (h : P.place c x y z = P.place c' x' y' z') :
    c = c' ∧ x = x' ∧ y = y' ∧ z = z' := by
  unfold Site.place at h
  obtain ⟨h1, e1⟩ := digits hz hz' h
  obtain ⟨h2, e2⟩ := digits hy hy' h1
  obtain ⟨h3, e3⟩ := digits hx hx' h2
  exact ⟨h3, e3, e2, e1⟩

theorem place_lt (P : Site) {c T x y z : Nat} (hc : c < T) (hx : x < P.na) (hy : y < P.nb) (hz : z < P.levels) :
    P.place c x y z < T * P.na * P.nb * P.levels := by
  unfold Site.place
  have h1 : c * P.na + x + 1 ≤ T * P.na := by nlinarith
  have h2 : (c * P.na + x) * P.nb + y + 1 ≤ T * P.na * P.nb := by nlinarith
  nlinarith

theorem mem_upTo {b e x : Nat} (h : x ∈ upTo b e) : b ≤ x ∧ x < e := by
  unfold upTo at h
  obtain ⟨t, ht, rfl⟩ := List.mem_map.1 h
  rw [List.mem_range] at ht
  omega

theorem mem_loops (P : Site) {t : Nat × Nat × Nat} (h : t ∈ P.loops) :
    t.1 < P.levels ∧ t.2.1 < P.aEnd ∧ t.2.2 < P.bEnd := by
  unfold Site.loops at h
  obtain ⟨k, hk, h⟩ := List.mem_flatMap.1 h
  obtain ⟨i, hi, h⟩ := List.mem_flatMap.1 h
  obtain ⟨j, hj, rfl⟩ := List.mem_map.1 h
  exact ⟨(mem_upTo hk).2, (mem_upTo hi).2, (mem_upTo hj).2⟩

theorem foldlM_ok {α σ : Type} (f : σ → α → Except Fault σ) (J : σ → Prop) (l : List α)
    (h : ∀ t ∈ l, ∀ s, J s → ∃ s', f s t = .ok s' ∧ J s') (s : σ) (hs : J s) :
    ∃ s', l.foldlM f s = .ok s' ∧ J s' := by
  induction l generalizing s with
  | nil => exact ⟨s, rfl, hs⟩
  | cons t l ih =>
    obtain ⟨s1, e1, h1⟩ := h t (List.mem_cons_self ..) s hs
    obtain ⟨s2, e2, h2⟩ := ih (fun u hu => h u (List.mem_cons_of_mem _ hu)) s1 h1
    refine ⟨s2, ?_, h2⟩
    rw [List.foldlM_cons, e1]
    exact e2

theorem foldlM_fails {α σ : Type} (f : σ → α → Except Fault σ) (l : List α) (t : α) (ht : t ∈ l)
    (h : ∀ s s', f s t ≠ .ok s') (s s' : σ) : l.foldlM f s ≠ .ok s' := by
  induction l generalizing s with
  | nil => cases ht
  | cons u l ih =>
    rw [List.foldlM_cons]
    cases hu : f s u with
    | error e => intro hh; cases hh
    | ok s1 =>
      rcases List.mem_cons.1 ht with rfl | h1
      · exact absurd hu (h s s1)
      · exact ih h1 s1

/-- What a pass keeps, compared with the amounts in the beginning. -/
structure Kept (P : Site) (m0 m : Nat → ℝ) : Prop where
  sum : ∀ x < P.na, ∀ y < P.nb, ∀ z < P.levels,
    P.value m 3 x y z + 2 * P.value m 4 x y z = P.value m0 3 x y z + 2 * P.value m0 4 x y z
  atoms : ∀ x < P.na, ∀ y < P.nb, ∀ z < P.levels, 0 ≤ P.value m 3 x y z
  molecules : ∀ x < P.na, ∀ y < P.nb, ∀ z < P.levels, 0 ≤ P.value m 4 x y z
  others : ∀ c, c ≠ 3 → c ≠ 4 → ∀ x < P.na, ∀ y < P.nb, ∀ z < P.levels, P.value m c x y z = P.value m0 c x y z

theorem reactAt_kept (P : Site) (hP : P.Fits) (dt : ℝ) (hdt : 0 ≤ dt)
    (hrho : ∀ x < P.na, ∀ y < P.nb, ∀ z < P.levels, 0 < P.value P.state 4 x y z) (m0 m : Nat → ℝ) (k i j : Nat)
    (hk : k < P.levels) (hi : i < P.aEnd) (hj : j < P.bEnd) (h : Kept P m0 m) :
    ∃ m', reactAt P dt k i j m = .ok m' ∧ Kept P m0 m' := by
  have hx : k < P.na := lt_of_lt_of_le hk hP.first
  have hy : i < P.nb := lt_of_lt_of_le hi hP.second
  have hz : j < P.levels := lt_of_lt_of_le hj hP.third
  have hT := hP.tracers
  unfold reactAt
  rw [if_pos ⟨place_lt P (by norm_num) hx hy hz, place_lt P (by omega) hx hy hz, place_lt P (by omega) hx hy hz,
    lt_of_lt_of_le hi hP.a, lt_of_lt_of_le hj hP.b⟩]
  refine ⟨_, rfl, ?_⟩
  set y := react (P.lat i j) (P.lon i j) (P.state (P.place 4 k i j)) dt (m (P.place 3 k i j)) (m (P.place 4 k i j)) with hy'
  have hc : y.1 + 2 * y.2 = m (P.place 3 k i j) + 2 * m (P.place 4 k i j) := C114_conserves _ _ _ _ _ _
  have hn : 0 ≤ y.1 ∧ 0 ≤ y.2 := C114_nonnegative _ _ _ _ _ _ (hrho k hx i hy j hz) hdt (h.atoms k hx i hy j hz)
    (h.molecules k hx i hy j hz)
  have e3 : ∀ x < P.na, ∀ y' < P.nb, ∀ z < P.levels,
      (fun a => if a = P.place 4 k i j then y.2 else if a = P.place 3 k i j then y.1 else m a) (P.place 3 x y' z) =
        if x = k ∧ y' = i ∧ z = j then y.1 else m (P.place 3 x y' z) := by
    intro x hx1 y1 hy1 z hz1
    simp only
    rw [if_neg (fun e => by have := (place_inj P hx1 hy1 hz1 hx hy hz e).1; omega)]
    by_cases e : x = k ∧ y1 = i ∧ z = j
    · obtain ⟨rfl, rfl, rfl⟩ := e
      simp
    · rw [if_neg e, if_neg (fun e' => e (place_inj P hx1 hy1 hz1 hx hy hz e').2)]
  have e4 : ∀ x < P.na, ∀ y' < P.nb, ∀ z < P.levels,
      (fun a => if a = P.place 4 k i j then y.2 else if a = P.place 3 k i j then y.1 else m a) (P.place 4 x y' z) =
        if x = k ∧ y' = i ∧ z = j then y.2 else m (P.place 4 x y' z) := by
    intro x hx1 y1 hy1 z hz1
    simp only
    by_cases e : x = k ∧ y1 = i ∧ z = j
    · obtain ⟨rfl, rfl, rfl⟩ := e
      simp
    · rw [if_neg e, if_neg (fun e' => e (place_inj P hx1 hy1 hz1 hx hy hz e').2),
        if_neg (fun e => by have := (place_inj P hx1 hy1 hz1 hx hy hz e).1; omega)]
  constructor
  · intro x hx1 y1 hy1 z hz1
    have := h.sum x hx1 y1 hy1 z hz1
    show (fun a => if a = P.place 4 k i j then y.2 else if a = P.place 3 k i j then y.1 else m a) (P.place 3 x y1 z) +
      2 * (fun a => if a = P.place 4 k i j then y.2 else if a = P.place 3 k i j then y.1 else m a) (P.place 4 x y1 z) = _
    rw [e3 x hx1 y1 hy1 z hz1, e4 x hx1 y1 hy1 z hz1, ← this]
    split
    · rename_i e
      obtain ⟨rfl, rfl, rfl⟩ := e
      exact hc
    · rfl
  · intro x hx1 y1 hy1 z hz1
    show 0 ≤ (fun a => if a = P.place 4 k i j then y.2 else if a = P.place 3 k i j then y.1 else m a) (P.place 3 x y1 z)
    rw [e3 x hx1 y1 hy1 z hz1]
    split
    · exact hn.1
    · exact h.atoms x hx1 y1 hy1 z hz1
  · intro x hx1 y1 hy1 z hz1
    show 0 ≤ (fun a => if a = P.place 4 k i j then y.2 else if a = P.place 3 k i j then y.1 else m a) (P.place 4 x y1 z)
    rw [e4 x hx1 y1 hy1 z hz1]
    split
    · exact hn.2
    · exact h.molecules x hx1 y1 hy1 z hz1
  · intro c hc3 hc4 x hx1 y1 hy1 z hz1
    show (fun a => if a = P.place 4 k i j then y.2 else if a = P.place 3 k i j then y.1 else m a) (P.place c x y1 z) = _
    simp only
    rw [if_neg (fun e => hc4 (place_inj P hx1 hy1 hz1 hx hy hz e).1),
      if_neg (fun e => hc3 (place_inj P hx1 hy1 hz1 hx hy hz e).1)]
    exact h.others c hc3 hc4 x hx1 y1 hy1 z hz1

/-! ### Theorems -/

/-- **C114 (partial).**  In a patch whose sizes happen to fit, any number of performances succeed, keep the chlorine of
every node, leave no negative amounts and do not touch other tracers.  That the nodes of the interior are those that
react is missing, since it is false. -/
theorem C114_perform_partial (P : Site) (hP : P.Fits)
    (hrho : ∀ x < P.na, ∀ y < P.nb, ∀ z < P.levels, 0 < P.value P.state 4 x y z) (dts : List ℝ)
    (hdts : ∀ dt ∈ dts, 0 ≤ dt) (m : Nat → ℝ)
    (hm : ∀ x < P.na, ∀ y < P.nb, ∀ z < P.levels, 0 ≤ P.value m 3 x y z ∧ 0 ≤ P.value m 4 x y z) :
    ∃ m', performs P dts m = .ok m' ∧ ∀ x < P.na, ∀ y < P.nb, ∀ z < P.levels,
      P.value m' 3 x y z + 2 * P.value m' 4 x y z = P.value m 3 x y z + 2 * P.value m 4 x y z ∧
      0 ≤ P.value m' 3 x y z ∧ 0 ≤ P.value m' 4 x y z ∧
      ∀ c, c ≠ 3 → c ≠ 4 → P.value m' c x y z = P.value m c x y z := by
  have hT := hP.tracers
  obtain ⟨m', e, h⟩ := foldlM_ok (fun m dt => perform P dt m) (Kept P m) dts
    (fun dt hdt s hs => by
      obtain ⟨s', e1, h1⟩ := foldlM_ok (fun m t => reactAt P dt t.1 t.2.1 t.2.2 m) (Kept P m) P.loops
        (fun t ht s hs => by
          obtain ⟨h1, h2, h3⟩ := mem_loops P ht
          exact reactAt_kept P hP dt (hdts dt hdt) hrho m s _ _ _ h1 h2 h3 hs) s hs
      refine ⟨s', ?_, h1⟩
      show perform P dt s = _
      unfold perform
      rw [if_neg (by omega), e1])
    m ⟨fun _ _ _ _ _ _ => rfl, fun x hx y hy z hz => (hm x hx y hy z hz).1, fun x hx y hy z hz => (hm x hx y hy z hz).2,
      fun _ _ _ _ _ _ _ _ _ => rfl⟩
  exact ⟨m', e, fun x hx y hy z hz => ⟨h.sum x hx y hy z hz, h.atoms x hx y hy z hz, h.molecules x hx y hy z hz,
    fun c h3 h4 => h.others c h3 h4 x hx y hy z hz⟩⟩

/-- **C114 (tracers).**  In a patch with fewer than five tracers, three for water and two for chlorine, the process stops
with an exception. -/
theorem C114_refused (P : Site) (dt : ℝ) (m : Nat → ℝ) (h : P.tracers < 5) : perform P dt m = .error .exception := by
  unfold perform
  rw [if_pos (by omega)]

/-- A patch of one interior column with two levels. -/
noncomputable def small : Site :=
  { na := 3, nb := 3, levels := 2, tracers := 5, aBegin := 1, aEnd := 2, bBegin := 1, bEnd := 2
    lat := fun _ _ => -(Real.pi / 2), lon := fun _ _ => 0, state := fun _ => 1 }

/-- The hypothesis of `C114_refused` is met by the small patch without one of its tracers. -/
example : perform { small with tracers := 4 } 1 (fun _ => 1) = .error .exception :=
  C114_refused _ _ _ (by decide)

theorem small_fits : small.Fits := by
  constructor <;> simp [small]

/-- The hypotheses of `C114_perform_partial` are met by the small patch. -/
example : ∃ m', performs small [1, 2] (fun _ => 1) = .ok m' ∧ small.value m' 3 1 1 1 + 2 * small.value m' 4 1 1 1 = 3 := by
  obtain ⟨m', e, h⟩ := C114_perform_partial small small_fits (fun _ _ _ _ _ _ => one_pos) [1, 2]
    (by intro dt h; simp at h; rcases h with rfl | rfl <;> norm_num) (fun _ => 1)
    (fun _ _ _ _ _ _ => ⟨zero_le_one, zero_le_one⟩)
  refine ⟨m', e, ?_⟩
  rw [(h 1 (by simp [small]) 1 (by simp [small]) 1 (by simp [small])).1]
  simp only [Site.value]
  norm_num

theorem night : photolysis (-(Real.pi / 2)) 0 = 0 := by
  unfold photolysis
  rw [sin_neg, cos_neg, sin_pi_div_two, cos_pi_div_two]
  have : 0 ≤ sin latCenter := sin_nonneg_of_nonneg_of_le_pi (by unfold latCenter; positivity)
    (by unfold latCenter; nlinarith [pi_pos])
  rw [one_mul, max_eq_left]
  nlinarith

theorem react_night : react (-(Real.pi / 2)) 0 1 1 1 0 = (1 / 3, 1 / 3) := by
  unfold react tendency
  rw [degrees, degrees, night]
  unfold tendencyOf recombination el
  norm_num

/-- **C114 (interior nodes, false).**  There is a patch in which a performance succeeds and yet a node of the interior
does not react: it keeps atoms that would recombine. -/
theorem C114_interior_false : ∃ (P : Site) (m m' : Nat → ℝ), P.Fits ∧ perform P 1 m = .ok m' ∧
    ∃ i j k, P.aBegin ≤ i ∧ i < P.aEnd ∧ P.bBegin ≤ j ∧ j < P.bEnd ∧ k < P.levels ∧
      P.value m' 3 i j k ≠
        (react (P.lat i j) (P.lon i j) (P.value P.state 4 i j k) 1 (P.value m 3 i j k) (P.value m 4 i j k)).1 := by
  have h1 : small.loops = [(0, 1, 1), (1, 1, 1)] := rfl
  obtain ⟨m', e⟩ : ∃ m', perform small 1 (fun a => if a < 72 then 1 else 0) = .ok m' ∧ m' 62 = 1 := by
    unfold perform
    rw [if_neg (by simp [small]), h1]
    have p1 : small.place 3 0 1 1 = 57 := rfl
    have p2 : small.place 4 0 1 1 = 75 := rfl
    have p3 : small.place 3 1 1 1 = 63 := rfl
    have p4 : small.place 4 1 1 1 = 81 := rfl
    simp only [List.foldlM_cons, List.foldlM_nil, reactAt, p1, p2, p3, p4]
    rw [if_pos (by simp [small])]
    refine ⟨_, rfl, ?_⟩
    norm_num
  refine ⟨small, _, m', small_fits, e.1, 1, 1, 0, by simp [small], by simp [small], by simp [small], by simp [small],
    by simp [small], ?_⟩
  have v1 : small.value m' 3 1 1 0 = 1 := e.2
  have v2 : small.value (fun a => if a < 72 then (1 : ℝ) else 0) 3 1 1 0 = 1 := by
    show (if 62 < 72 then (1 : ℝ) else 0) = 1
    norm_num
  have v3 : small.value (fun a => if a < 72 then (1 : ℝ) else 0) 4 1 1 0 = 0 := by
    show (if 80 < 72 then (1 : ℝ) else 0) = 0
    norm_num
  rw [v1, v2, v3, show small.value small.state 4 1 1 0 = 1 from rfl, show small.lat 1 1 = -(Real.pi / 2) from rfl,
    show small.lon 1 1 = 0 from rfl, react_night]
  norm_num

/-- **C114 (memory, false).**  In a patch with five tracers, some interior and more levels than the total width in the
first coordinate, no performance succeeds: the process writes outside of the array. -/
theorem C114_outside_false (P : Site) (dt : ℝ) (m m' : Nat → ℝ) (hT : P.tracers = 5) (ha : P.aBegin < P.aEnd)
    (hb : P.bBegin < P.bEnd) (hl : P.na < P.levels) : perform P dt m ≠ .ok m' := by
  unfold perform
  rw [if_neg (by omega)]
  refine foldlM_fails _ _ (P.na, P.aBegin, P.bBegin) ?_ ?_ m m'
  · unfold Site.loops
    refine List.mem_flatMap.2 ⟨P.na, ?_, List.mem_flatMap.2 ⟨P.aBegin, ?_, List.mem_map.2 ⟨P.bBegin, ?_, rfl⟩⟩⟩
    · exact List.mem_map.2 ⟨P.na, List.mem_range.2 (by omega), by omega⟩
    · exact List.mem_map.2 ⟨0, List.mem_range.2 (by omega), rfl⟩
    · exact List.mem_map.2 ⟨0, List.mem_range.2 (by omega), rfl⟩
  · intro s s'
    unfold reactAt
    rw [if_neg]
    · intro h; cases h
    · rintro ⟨h, -⟩
      unfold Site.place at h
      have : 5 * P.na * P.nb * P.levels ≤ ((4 * P.na + P.na) * P.nb + P.aBegin) * P.levels + P.bBegin := by
        calc 5 * P.na * P.nb * P.levels = ((4 * P.na + P.na) * P.nb) * P.levels := by ring
          _ ≤ ((4 * P.na + P.na) * P.nb + P.aBegin) * P.levels := Nat.mul_le_mul_right _ (by omega)
          _ ≤ _ := by omega
      simp only at h
      omega

/-- The hypotheses of the theorems about one point are met in sunlight. -/
example : (∃ a b : ℝ → ℝ, a 0 = 1 ∧ b 0 = 1 ∧ Reacts (max 0 (cosine (direction 0 0) sun)) 1 a b) ∧
    0 ≤ (react 0 0 1 100 1 1).1 ∧ 0 ≤ (react 0 0 1 100 1 1).2 :=
  ⟨by
    obtain ⟨a, b, h1, h2, h3, -⟩ := C114_exact 0 0 1 1 1 one_pos zero_le_one zero_le_one
    exact ⟨a, b, h1, h2, h3⟩, C114_nonnegative 0 0 1 100 1 1 one_pos (by norm_num) zero_le_one zero_le_one⟩

end Verif.Physics
