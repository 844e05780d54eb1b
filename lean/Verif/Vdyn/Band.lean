/-
C91: the statements that build the Jacobian stay inside the band.
-/
import Verif.Vdyn.JacobianProps
import Verif.Column.DiffDiff

namespace Verif.Vdyn

open Verif.Column Verif.Interp Finset Polynomial

/-- The interpolations between levels and interfaces and the second derivative on interfaces as the library sets them up; the
interpolations are between stretched coordinates. -/
structure Stencils (S : Setup) (node edge stretchedNode stretchedEdge : Nat → ℝ) (gauss lob : List ℝ × List ℝ) : Prop where
  toInterfaces : interpInit .levels S.order S.levels (S.levels + 1) stretchedNode stretchedEdge (S.levels + 1) stretchedEdge false =
    .ok S.interpNE
  toLevels : interpInit .interfaces S.order S.levels (S.levels + 1) stretchedNode stretchedEdge S.levels stretchedNode false =
    .ok S.interpEN
  second : ∃ solve, diffDiffInit solve .interfaces S.order S.levels (S.levels + 1) node edge gauss lob = .ok S.diffDiffEE
  separated : Separated (fun b => stretchedEdge (b * S.order)) (S.levels / S.order)
  insideEdges : ∀ a < S.levels / S.order, ∀ j, 0 < j → j < S.order →
    InElement (fun b => stretchedEdge (b * S.order)) (S.levels / S.order) a (stretchedEdge (a * S.order + j))
  insideNodes : ∀ a < S.levels / S.order, ∀ i < S.order,
    InElement (fun b => stretchedEdge (b * S.order)) (S.levels / S.order) a (stretchedNode (a * S.order + i))

/-- Where the search finds interface `k`. -/
theorem edge_located (edge : Nat → ℝ) (n m : Nat) (hn : 0 < n) (hm : 0 < m) (hsep : Separated (fun b => edge (b * n)) m)
    (hin : ∀ a < m, ∀ j, 0 < j → j < n → InElement (fun b => edge (b * n)) m a (edge (a * n + j))) (k : Nat) (hk : k ≤ m * n) :
    ∃ a, (findElement (fun b => edge (b * n)) m (edge k) = (a, false) ∧ a < m ∧ a * n ≤ k ∧ k ≤ a * n + n ∧ (k = a * n → a = 0) ∧
      (k = a * n + n → a + 1 = m)) ∨
    (findElement (fun b => edge (b * n)) m (edge k) = (a, true) ∧ a + 1 < m ∧ k = a * n + n) := by
  have he := eps_pos
  have hd := Nat.div_add_mod k n
  have hlt := Nat.mod_lt k hn
  rw [mul_comm] at hd
  by_cases h0 : k % n = 0
  · by_cases hz : k / n = 0
    · have hk0 : k = 0 := by rw [hz, h0] at hd; omega
      subst hk0
      refine ⟨0, Or.inl ⟨find_in hsep ⟨hm, Or.inl rfl, ?_⟩, hm, by omega, by omega, fun _ => rfl, fun h => by omega⟩⟩
      right
      have := hsep 0 hm
      simp only [zero_mul] at this ⊢
      linarith
    · by_cases ht : k / n = m
      · refine ⟨m - 1, Or.inl ⟨find_in hsep ⟨by omega, ?_, Or.inl (by omega)⟩, by omega, ?_, ?_, ?_, fun _ => by omega⟩⟩
        · by_cases h1 : m - 1 = 0
          · exact Or.inl h1
          · right
            have := hsep (m - 1) (by omega)
            simp only [show m - 1 + 1 = m by omega] at this
            have e : k = m * n := by rw [← hd, h0, ht]; rfl
            rw [e]
            linarith
        · have : (m - 1) * n ≤ m * n := Nat.mul_le_mul_right _ (by omega)
          rw [← hd, h0, ht]
          omega
        · have : (m - 1) * n + n = m * n := by
            conv_rhs => rw [show m = (m - 1) + 1 by omega]
            rw [Nat.add_mul, one_mul]
          omega
        · intro h
          have : (m - 1) * n + n = m * n := by
            conv_rhs => rw [show m = (m - 1) + 1 by omega]
            rw [Nat.add_mul, one_mul]
          rw [← hd, h0, ht] at h
          omega
      · have hlm : k / n < m := by
          have : k / n ≤ m := by
            have := Nat.div_le_div_right (c := n) hk
            rwa [Nat.mul_div_cancel _ hn] at this
          omega
        clear hin
        generalize k / n = q at *
        have e1 : (q - 1 + 1) * n = (q - 1) * n + n := by ring
        rw [show q - 1 + 1 = q by omega] at e1
        have e2 : k = (q - 1) * n + n := by omega
        refine ⟨q - 1, Or.inr ⟨find_on hsep ⟨by omega, ?_, ?_⟩, by omega, e2⟩⟩
        · have : edge k = edge ((q - 1 + 1) * n) := by
            rw [show q - 1 + 1 = q by omega]
            congr 1
            omega
          rw [this]
          linarith
        · have : edge k = edge ((q - 1 + 1) * n) := by
            rw [show q - 1 + 1 = q by omega]
            congr 1
            omega
          rw [this]
          linarith
  · have hlm : k / n < m := by
      rw [Nat.div_lt_iff_lt_mul hn]
      rcases Nat.eq_or_lt_of_le hk with h | h
      · exfalso
        apply h0
        rw [h, Nat.mul_mod_left]
      · exact h
    have hf := find_in hsep (hin (k / n) hlm (k % n) (by omega) hlt)
    rw [hd] at hf
    exact ⟨k / n, Or.inl ⟨hf, hlm, by omega, by omega, fun h => by omega, fun h => by omega⟩⟩

theorem fill_rows {nIn nOut : Nat} {f : Nat → Option Row} {A : Op} (h : fill nIn nOut 0 nOut f = .ok A) (l : Nat) (hl : l < nOut) :
    ∃ r, f l = some r ∧ A.row l = r := by
  unfold fill at h
  split_ifs at h with hall
  rw [List.all_eq_true] at hall
  have hs := hall l (List.mem_range.2 hl)
  simp only [decide_eq_true_eq] at hs
  obtain ⟨r, hr⟩ := Option.isSome_iff_exists.1 (hs ⟨by omega, hl⟩)
  refine ⟨r, hr, ?_⟩
  obtain rfl := Res.ok.inj h
  simp only [Nat.zero_le, true_and, if_pos hl, hr, Option.getD_some]

theorem interp_fill {src : Source} {n N nEdge nOut : Nat} {node edge out : Nat → ℝ} {A : Op}
    (h : interpInit src n N nEdge node edge nOut out false = .ok A) :
    (src = .interfaces → fill (N + 1) nOut 0 nOut (fun l => some (interfaceRow n edge (N / n) (out l))) = .ok A) ∧
    (src = .levels → fill N nOut 0 nOut (fun l => levelRow n N node edge (N / n) nOut l (out l)) = .ok A) := by
  unfold interpInit at h
  simp only [Bool.false_eq_true, false_and, if_false] at h
  by_cases h1 : N = 0
  · rw [if_pos h1] at h; simp at h
  rw [if_neg h1] at h
  by_cases h2 : nEdge ≠ N + 1
  · rw [if_pos h2] at h; simp at h
  rw [if_neg h2] at h
  by_cases h3 : N % n ≠ 0
  · rw [if_pos h3] at h; simp at h
  rw [if_neg h3] at h
  constructor
  · rintro rfl
    exact h
  · rintro rfl
    exact h

section
variable {S : Setup} {node edge sNode sEdge : Nat → ℝ} {gauss lob : List ℝ × List ℝ}

/-- The interpolation to interface `k`: it reads the levels of its elements. -/
theorem toInterfaces_range (T : Stencils S node edge sNode sEdge gauss lob) (hn : 0 < S.order)
    (hN : S.levels = S.levels / S.order * S.order) (hm : 0 < S.levels / S.order) (k : Nat) (hk : k ≤ S.levels) :
    (∀ a < S.levels / S.order, a * S.order ≤ k → k ≤ a * S.order + S.order →
      a * S.order ≤ (S.interpNE.row k).ibegin + S.order ∧ (S.interpNE.row k).iend ≤ a * S.order + 2 * S.order) ∧
    (0 < k → k < S.levels → k ≤ (S.interpNE.row k).ibegin + S.order ∧ (S.interpNE.row k).iend ≤ k + S.order) ∧
    (S.interpNE.row k).iend ≤ S.levels := by
  obtain ⟨r, hr, hrow⟩ := fill_rows ((interp_fill T.toInterfaces).2 rfl) k (by omega)
  rw [hrow]
  have hloc := edge_located sEdge S.order _ hn hm T.separated T.insideEdges k (by omega)
  generalize hM : S.levels / S.order = m at *
  obtain ⟨b, ⟨hf, hb, h1, h2, h3, h4⟩ | ⟨hf, hb, h1⟩⟩ := hloc
  · unfold levelRow at hr
    rw [hf] at hr
    simp only [Bool.false_eq_true, if_false] at hr
    unfold levelBase at hr
    have hbm : b * S.order + S.order ≤ m * S.order := by
      have : (b + 1) * S.order ≤ m * S.order := Nat.mul_le_mul_right _ hb
      rw [Nat.add_mul, one_mul] at this
      exact this
    have key : ∀ a < m, a * S.order ≤ k → k ≤ a * S.order + S.order → a = b := by
      intro a ha ha1 ha2
      rcases Nat.lt_trichotomy a b with hlt | heq | hgt
      · have : (a + 1) * S.order ≤ b * S.order := Nat.mul_le_mul_right _ hlt
        rw [Nat.add_mul, one_mul] at this
        have := h3 (by omega)
        omega
      · exact heq
      · have : (b + 1) * S.order ≤ a * S.order := Nat.mul_le_mul_right _ hgt
        rw [Nat.add_mul, one_mul] at this
        have := h4 (by omega)
        omega
    split_ifs at hr with c1 c2 c3 c4
    · obtain rfl := Option.some.inj hr
      dsimp only
      have e2 : (b + 2) * S.order = b * S.order + 2 * S.order := by ring
      refine ⟨fun a ha ha1 ha2 => ?_, fun hk0 => by omega, ?_⟩
      · obtain rfl := key a ha ha1 ha2
        constructor
        · omega
        · omega
      · rw [e2, c1.1]
        omega
    · simp at hr
    · obtain rfl := Option.some.inj hr
      dsimp only
      have e2 : (b + 1) * S.order = b * S.order + S.order := by ring
      have e3 : (b - 1) * S.order + S.order = b * S.order := by
        conv_rhs => rw [show b = (b - 1) + 1 by omega]
        rw [Nat.add_mul, one_mul]
      refine ⟨fun a ha ha1 ha2 => ?_, fun _ hk2 => by omega, by omega⟩
      obtain rfl := key a ha ha1 ha2
      omega
    · simp at hr
    · obtain rfl := Option.some.inj hr
      dsimp only
      have e2 : (b + 1) * S.order = b * S.order + S.order := by ring
      refine ⟨fun a ha ha1 ha2 => ?_, fun hk1 hk2 => ?_, by omega⟩
      · obtain rfl := key a ha ha1 ha2
        omega
      · have : k ≠ b * S.order := fun h => by have := h3 h; rw [this] at h; omega
        omega
  · unfold levelRow at hr
    rw [hf] at hr
    have hbm : b * S.order + S.order + S.order ≤ m * S.order := by
      have : (b + 2) * S.order ≤ m * S.order := Nat.mul_le_mul_right _ hb
      rw [Nat.add_mul] at this
      omega
    have hbase : levelBase S.order S.levels sNode (S.levels + 1) k b (sEdge k) =
        some ⟨put (fun _ => 0) (b * S.order) (lagrangeCoeffs S.order (fun i => sNode (b * S.order + i)) (sEdge k)), b * S.order,
          (b + 1) * S.order⟩ := by
      unfold levelBase
      rw [if_neg (by omega), if_neg (by omega)]
    simp only [hbase, if_true, Option.bind_some] at hr
    have e2 : (b + 1) * S.order = b * S.order + S.order := by ring
    rw [if_pos (by omega)] at hr
    obtain rfl := Option.some.inj hr
    dsimp only
    refine ⟨fun a ha ha1 ha2 => ?_, fun hk1 hk2 => by omega, by omega⟩
    rcases Nat.lt_trichotomy a b with hlt | heq | hgt
    · have : (a + 1) * S.order ≤ b * S.order := Nat.mul_le_mul_right _ hlt
      rw [Nat.add_mul, one_mul] at this
      omega
    · subst heq
      omega
    · have : (b + 1) * S.order ≤ a * S.order := Nat.mul_le_mul_right _ hgt
      omega

/-- The interpolation to level `l`: it reads the interfaces of its element. -/
theorem toLevels_range (T : Stencils S node edge sNode sEdge gauss lob) (hn : 0 < S.order)
    (hN : S.levels = S.levels / S.order * S.order) (l : Nat) (hl : l < S.levels) :
    (S.interpEN.row l).ibegin = l / S.order * S.order ∧ (S.interpEN.row l).iend = l / S.order * S.order + S.order + 1 := by
  obtain ⟨r, hr, hrow⟩ := fill_rows ((interp_fill T.toLevels).1 rfl) l hl
  rw [hrow]
  obtain rfl := Option.some.inj hr
  have hd := Nat.div_add_mod l S.order
  rw [mul_comm] at hd
  have hf := find_in T.separated (T.insideNodes (l / S.order) ((Nat.div_lt_iff_lt_mul hn).2 (by rw [← hN]; exact hl)) (l % S.order)
    (Nat.mod_lt _ hn))
  rw [hd] at hf
  unfold interfaceRow
  rw [hf]
  simp only [Bool.false_eq_true, if_false]
  exact ⟨trivial, by ring⟩

/-- The derivative on level `k`: it reads the interfaces of its element. -/
theorem diffEN_range (E : Elements S node edge gauss lob) (k : Nat) (hk : k < S.levels) :
    (S.diffEN.row k).ibegin = k / S.order * S.order ∧ (S.diffEN.row k).iend = k / S.order * S.order + S.order + 1 := by
  obtain ⟨hn, hN, hm, -⟩ := penalty_facts E
  obtain ⟨solve, hs, -, hB, -⟩ := E.setup
  have hrow : S.diffEN.row k = diffRow S.order edge (S.levels / S.order) (node k) := by
    unfold diffInterfaceInit at hB
    split_ifs at hB
    obtain h := Res.ok.inj hB
    rw [← h]
  have hd := Nat.div_add_mod k S.order
  rw [mul_comm] at hd
  have hf := find_in E.separated (E.insideNodes (k / S.order) ((Nat.div_lt_iff_lt_mul hn).2 (by rw [← hN]; exact hk)) (k % S.order)
    (Nat.mod_lt _ hn))
  rw [hd] at hf
  rw [hrow]
  unfold diffRow
  rw [hf]
  simp only [Bool.false_eq_true, if_false]
  exact ⟨trivial, by ring⟩

/-- The second derivative on interface `k`. -/
theorem second_range (T : Stencils S node edge sNode sEdge gauss lob) (hn : 0 < S.order)
    (hN : S.levels = S.levels / S.order * S.order) (k : Nat) (hk : k ≤ S.levels) :
    k ≤ (S.diffDiffEE.row k).ibegin + S.order ∧ (S.diffDiffEE.row k).iend ≤ k + S.order + 1 ∧
      (S.diffDiffEE.row k).iend ≤ S.levels + 1 := by
  obtain ⟨solve, h⟩ := T.second
  have hrow : S.diffDiffEE.row k = ddSharedRow S.order (S.levels / S.order)
      (fun a s => diffCoeffs (S.order + 1) (fun i => edge (a * S.order + i)) (edge (a * S.order + s))) (gaussWeight S.order edge lob) k := by
    unfold diffDiffInit at h
    split_ifs at h
    exact congrFun (congrArg Op.row (Res.ok.inj h)).symm k
  rw [hrow]
  unfold ddSharedRow ddRange
  dsimp only
  have hd := Nat.div_add_mod k S.order
  have hlt := Nat.mod_lt k hn
  rw [mul_comm] at hd
  generalize hM : S.levels / S.order = m at *
  have e1 : ∀ a : Nat, (a + 1) * S.order = a * S.order + S.order := fun a => by ring
  have hle : k / S.order ≤ m := by
    have := Nat.div_le_div_right (c := S.order) hk
    rwa [hM] at this
  generalize k / S.order = q at *
  split_ifs with c1 c2 c3 c4
  · rcases c1 with c1 | c1
    · omega
    · rw [c1, zero_mul] at hN
      omega
  · dsimp only
    have : q < m := by
      rcases Nat.eq_or_lt_of_le hle with h | h
      · rw [h] at hd; omega
      · exact h
    have : (q + 1) * S.order ≤ m * S.order := Nat.mul_le_mul_right _ this
    rw [e1] at *
    omega
  · dsimp only
    rw [c3, zero_mul] at hd
    have : 1 * S.order ≤ m * S.order := Nat.mul_le_mul_right _ (by omega)
    omega
  · dsimp only
    have : (q - 1 + 1) * S.order = (q - 1) * S.order + S.order := e1 _
    rw [show q - 1 + 1 = q by omega] at this
    omega
  · dsimp only
    have : (q - 1 + 1) * S.order = (q - 1) * S.order + S.order := e1 _
    rw [show q - 1 + 1 = q by omega] at this
    have : (q + 1) * S.order ≤ m * S.order := Nat.mul_le_mul_right _ (by omega)
    rw [e1] at *
    omega

theorem addAt_none (c : Nat → ℝ) (b : Nat) (v : ℝ) (l : List ℝ) (k : Nat) (hv : v = 0) : addAt c b v l k = c k := by
  unfold addAt
  rw [hv]
  split_ifs <;> simp

/-- The derivative on interface `k`: it reads the levels of the elements around, and those beyond its own elements with weight
zero. -/
theorem diffNE_range (E : Elements S node edge gauss lob) (k : Nat) (h0 : 0 < k) (hk : k < S.levels) :
    (∀ j, (S.diffNE.row k).ibegin ≤ j → j < (S.diffNE.row k).iend →
      k ≤ j / S.order * S.order + 2 * S.order ∧ j / S.order * S.order + S.order ≤ k + 2 * S.order ∧ j < S.levels) ∧
    ∀ j, (S.diffNE.row k).coeff j ≠ 0 → j / S.order * S.order ≤ k ∧ k ≤ j / S.order * S.order + S.order := by
  obtain ⟨hn, hN, hm, -⟩ := penalty_facts E
  obtain ⟨solve, hs, hA, -, -⟩ := E.setup
  obtain ⟨-, -, -, f, hf, -, -, hrow⟩ := flux_cases hA
  obtain ⟨⟨g, hg, -⟩, f', hf', hfg⟩ := C87_correction solve hs 2 (S.order + 1) (by omega) (by omega)
  rw [hf] at hf'
  obtain rfl := Derivs.ok.inj hf'
  replace hfg := hfg g hg
  obtain ⟨-, -, hl1, hl2⟩ := lumped S.order hn lob E.lobattoRule g hg
  have hr := (fluxRow_range f S.order (S.levels / S.order) node edge true (edge k) hm)
  rw [hrow]
  dsimp only
  obtain ⟨a, hloc⟩ := edge_located edge S.order _ hn hm E.separated E.insideEdges k (by omega)
  generalize hM : S.levels / S.order = m at *
  have e1 : ∀ a : Nat, (a + 1) * S.order = a * S.order + S.order := fun a => by ring
  have e2 : ∀ a : Nat, (a + 2) * S.order = a * S.order + 2 * S.order := fun a => by ring
  have e3 : a ≠ 0 → (a - 1) * S.order + S.order = a * S.order := fun h => by
    rw [← e1, show a - 1 + 1 = a by omega]
  rcases hloc with ⟨hfe, ha, h1, h2, h3, h4⟩ | ⟨hfe, ha, h1⟩
  · have hlo : a * S.order < k := by
      rcases Nat.eq_or_lt_of_le h1 with h | h
      · have := h3 h.symm
        rw [this] at h
        omega
      · exact h
    have hhi : k < a * S.order + S.order := by
      rcases Nat.eq_or_lt_of_le h2 with h | h
      · have := h4 h
        rw [← e1, this] at h
        omega
      · exact h
    obtain ⟨hpos, hpt⟩ := E.onLobatto a (by omega)
    have hy : (edge k - edge (a * S.order)) / (edge ((a + 1) * S.order) - edge (a * S.order)) =
        (lob.1.getD (k - a * S.order) 0 + 1) / 2 := by
      have := hpt (k - a * S.order) (by omega)
      rw [show a * S.order + (k - a * S.order) = k by omega] at this
      have hne : edge ((a + 1) * S.order) - edge (a * S.order) ≠ 0 := by linarith
      rw [this]
      field_simp
      ring
    have hz1 : f (1 - (edge k - edge (a * S.order)) / (edge ((a + 1) * S.order) - edge (a * S.order))) = 0 := by
      rw [hy, hfg]
      exact hl2 _ (by omega) (by omega)
    have hz2 : f ((edge k - edge (a * S.order)) / (edge ((a + 1) * S.order) - edge (a * S.order))) = 0 := by
      rw [hy, hfg]
      exact hl1 _ (by omega)
    unfold fluxRow at hr ⊢
    rw [hfe] at hr ⊢
    dsimp only at hr ⊢
    refine ⟨fun j hj1 hj2 => ?_, fun j hj => ?_⟩
    · have b1 : a * S.order ≤ j / S.order * S.order + S.order := by
        split_ifs at hj1 with c
        · have h1 := (Nat.le_div_iff_mul_le hn).2 hj1
          have h2 := Nat.mul_le_mul_right S.order h1
          have := e3 c
          omega
        · have h1 := (Nat.le_div_iff_mul_le hn).2 hj1
          have h2 := Nat.mul_le_mul_right S.order h1
          omega
      have b2 : j / S.order * S.order + S.order ≤ a * S.order + 2 * S.order := by
        have h2 : j < (a + 2) * S.order := by
          split_ifs at hj2
          · exact hj2
          · rw [e2]
            rw [e1] at hj2
            omega
        have h1 := (Nat.div_lt_iff_lt_mul hn).2 h2
        have h2 := Nat.mul_le_mul_right S.order (show j / S.order + 1 ≤ a + 2 by omega)
        rw [e1, e2] at h2
        exact h2
      omega
    · rw [hz1, hz2] at hj
      have hcoef : upperCorrection S.order m node edge true a 0 (lowerCorrection S.order m node edge true a false (0 * -1)
          (localDeriv S.order node a false (edge ((a + 1) * S.order) - edge (a * S.order)) (edge k))) j =
          localDeriv S.order node a false (edge ((a + 1) * S.order) - edge (a * S.order)) (edge k) j := by
        unfold upperCorrection lowerCorrection
        simp only [Bool.true_eq_false, false_and, if_false, Bool.false_eq_true]
        split_ifs <;> simp only [addAt_none _ _ _ _ _ (show -((0.5 : ℝ) * 0) = 0 by norm_num),
          addAt_none _ _ _ _ _ (show (0.5 : ℝ) * 0 = 0 by norm_num), addAt_none _ _ _ _ _ (show (0.5 : ℝ) * (0 * -1) = 0 by norm_num),
          addAt_none _ _ _ _ _ (show -((0.5 : ℝ) * (0 * -1)) = 0 by norm_num)]
      rw [hcoef] at hj
      unfold localDeriv at hj
      simp only [Bool.false_eq_true, if_false, put, length_diff] at hj
      by_cases hin : a * S.order ≤ j ∧ j < a * S.order + S.order
      · have hq : j / S.order = a := Nat.div_eq_of_lt_le hin.1 (by rw [e1]; exact hin.2)
        rw [hq]
        omega
      · rw [if_neg hin] at hj
        simp at hj
  · have hx : edge k = edge ((a + 1) * S.order) := by rw [h1, e1]
    obtain ⟨hpos, -⟩ := E.onLobatto a (by omega)
    have hne : edge ((a + 1) * S.order) - edge (a * S.order) ≠ 0 := by linarith
    have hz1 : f (1 - (edge k - edge (a * S.order)) / (edge ((a + 1) * S.order) - edge (a * S.order))) = 0 := by
      rw [hx, div_self hne, sub_self, hfg]
      exact correction_flat _ g hg
    unfold fluxRow at hr ⊢
    rw [hfe] at hr ⊢
    dsimp only at hr ⊢
    refine ⟨fun j hj1 hj2 => ?_, fun j hj => ?_⟩
    · have b1 : a * S.order ≤ j / S.order * S.order + S.order := by
        split_ifs at hj1 with c
        · have h1 := (Nat.le_div_iff_mul_le hn).2 hj1
          have h2 := Nat.mul_le_mul_right S.order h1
          have := e3 c
          omega
        · have h1 := (Nat.le_div_iff_mul_le hn).2 hj1
          have h2 := Nat.mul_le_mul_right S.order h1
          omega
      have b2 : j / S.order * S.order + S.order ≤ a * S.order + 2 * S.order := by
        have h2 : j < (a + 2) * S.order := by
          split_ifs at hj2
          · exact hj2
          · rw [e2]
            rw [e1] at hj2
            omega
        have h1 := (Nat.div_lt_iff_lt_mul hn).2 h2
        have h2 := Nat.mul_le_mul_right S.order (show j / S.order + 1 ≤ a + 2 by omega)
        rw [e1, e2] at h2
        exact h2
      omega
    · by_contra hout
      have k0 : ¬ (a * S.order ≤ j ∧ j < a * S.order + S.order) := fun h => hout (by
        have hq : j / S.order = a := Nat.div_eq_of_lt_le h.1 (by rw [e1]; exact h.2)
        rw [hq]
        omega)
      have k1 : ¬ ((a + 1) * S.order ≤ j ∧ j < (a + 1) * S.order + S.order) := fun h => hout (by
        have hq : j / S.order = a + 1 := Nat.div_eq_of_lt_le h.1 (by rw [e1 (a + 1)]; exact h.2)
        rw [hq, e1]
        omega)
      apply hj
      have z0 : ∀ d, localDeriv S.order node a true d (edge k) j = 0 := by
        intro d
        unfold localDeriv
        simp only [if_true, put, length_diff]
        rw [if_neg k1, if_neg k0, zero_mul]
      have z1 : ∀ c, c j = 0 → lowerCorrection S.order m node edge true a true (f (1 - (edge k - edge (a * S.order)) /
          (edge ((a + 1) * S.order) - edge (a * S.order))) * -1) c j = 0 := by
        intro c hc
        rw [hz1]
        unfold lowerCorrection
        simp only [Bool.true_eq_false, false_and, if_false, if_true]
        split_ifs
        · rw [addAt_none _ _ _ _ _ (by norm_num), hc]
        · exact hc
      have z2 : ∀ dr c, c j = 0 → upperCorrection S.order m node edge true a dr c j = 0 := by
        intro dr c hc
        unfold upperCorrection
        rw [if_pos (by omega)]
        exact addAt_zero _ _ _ _ _ (addAt_zero _ _ _ _ _ hc (by rw [length_lagrange]; exact k1)) (by rw [length_lagrange]; exact k0)
      rw [z2 _ _ (z1 _ (z0 _)), zero_div]

/-- The penalty on level `k` reads the two elements of the edge. -/
theorem penalty_range (E : Elements S node edge gauss lob) (h1 : 1 < S.levels / S.order) (k : Nat) (hk : k < S.levels) :
    (k / S.order + 1 < S.levels / S.order → (S.penalty.left.row k).ibegin = k / S.order * S.order ∧
      (S.penalty.left.row k).iend = k / S.order * S.order + 2 * S.order) ∧
    (0 < k / S.order → (S.penalty.right.row k).ibegin + S.order = k / S.order * S.order ∧
      (S.penalty.right.row k).iend = k / S.order * S.order + S.order) := by
  obtain ⟨hn, hN, hm, -⟩ := penalty_facts E
  obtain ⟨solve, hs, -, -, hP⟩ := E.setup
  obtain ⟨-, -, f, -, hPe⟩ := init_cases hP h1
  have hlt : k / S.order < S.levels / S.order := (Nat.div_lt_iff_lt_mul hn).2 (by rw [← hN]; exact hk)
  rw [hPe]
  constructor
  · intro h
    show (penaltyLeftRow f S.order (S.levels / S.order) node edge k).ibegin = _ ∧ (penaltyLeftRow f S.order (S.levels / S.order) node edge k).iend = _
    unfold penaltyLeftRow
    dsimp only
    rw [if_pos (by omega)]
    exact ⟨rfl, rfl⟩
  · intro h
    show (penaltyRightRow f S.order (S.levels / S.order) node edge k).ibegin + _ = _ ∧ (penaltyRightRow f S.order (S.levels / S.order) node edge k).iend = _
    unfold penaltyRightRow
    dsimp only
    rw [if_pos (by omega)]
    have e : (k / S.order - 1) * S.order + S.order = k / S.order * S.order := by
      conv_rhs => rw [show k / S.order = k / S.order - 1 + 1 by omega, Nat.add_mul, one_mul]
    simp only [jumpRow]
    exact ⟨e, by omega⟩

/-- A statement stays within twice the band width, and in the band and the columns of the matrix if it adds something. -/
def InBand (d size : Nat) (u : Update) : Prop :=
  (u.row ≤ u.col + 2 * d ∧ u.col ≤ u.row + 2 * d) ∧ (u.value ≠ 0 → u.col < size ∧ u.row ≤ u.col + d ∧ u.col ≤ u.row + d)

theorem inBand_of {d size : Nat} {u : Update} (h1 : u.col < size) (h2 : u.row ≤ u.col + d) (h3 : u.col ≤ u.row + d) : InBand d size u :=
  ⟨⟨by omega, by omega⟩, fun _ => ⟨h1, h2, h3⟩⟩

theorem width (h : S.volumes = false) {d : Nat} (hd : offDiagonals S = some d) :
    0 < S.order ∧ 6 * S.order ≤ d + 3 ∧ 3 * S.order + 1 ≤ d := by
  unfold offDiagonals at hd
  rw [h] at hd
  simp only [Bool.false_eq_true, if_false] at hd
  split_ifs at hd <;> simp at hd <;> omega

theorem mem_stencil {A : Op} {k m : Nat} : m ∈ stencil A k ↔ (A.row k).ibegin ≤ m ∧ m < (A.row k).iend := by
  unfold stencil
  rw [List.mem_range'_1]
  omega

/-- **C91 (in the band).**  For finite elements of every order that is not refused, every statement that adds something to the
Jacobian is in the band that was allocated; what the others touch, the solver does not read. -/
theorem C91_in_band (E : Elements S node edge gauss lob) (T : Stencils S node edge sNode sEdge gauss lob) (hL : Lorenz S)
    {d : Nat} (hd : offDiagonals S = some d) (G : Metric) (M : Memory) (x : Nat → ℝ) :
    ∀ u ∈ jacobianUpdates S G M x, InBand d (3 * (S.levels + 1)) u := by
  obtain ⟨hn, w1, w2⟩ := width E.elements hd
  obtain ⟨-, hN, hm, -, -⟩ := penalty_facts E
  have hper : perElement S = S.order := by simp [perElement, E.elements]
  have hne : nElements S = S.levels / S.order := by simp [nElements, E.elements]
  have hblock : ∀ k, k / S.order * S.order ≤ k ∧ k < k / S.order * S.order + S.order := fun k => by
    have h1 := Nat.div_add_mod k S.order
    have h2 := Nat.mod_lt k hn
    rw [mul_comm] at h1
    omega
  have hlast : ∀ k < S.levels, k / S.order * S.order + S.order ≤ S.levels := fun k hk => by
    have h1 : k / S.order < S.levels / S.order := (Nat.div_lt_iff_lt_mul hn).2 (by rw [← hN]; exact hk)
    have h2 := Nat.mul_le_mul_right S.order (show k / S.order + 1 ≤ S.levels / S.order by omega)
    rw [Nat.add_mul, one_mul] at h2
    omega
  have hlev : ∀ c : Nat, c = 2 ∨ c = 4 → ∀ u ∈ upwindUpdates S G M x c, InBand d (3 * (S.levels + 1)) u := by
    intro c hc u hu
    have hon : onEdge S c = false := by
      rcases hc with rfl | rfl
      · simp [onEdge, hL.2.1]
      · simp [onEdge]
    unfold upwindUpdates at hu
    rw [hon] at hu
    simp only [Bool.false_eq_true, if_false] at hu
    obtain ⟨a, ha, hu⟩ := List.mem_flatMap.1 hu
    rw [List.mem_range'_1, hne] at ha
    have eM : (a - 1) * S.order + S.order = a * S.order := by
      conv_rhs => rw [show a = a - 1 + 1 by omega, Nat.add_mul, one_mul]
    have eA : (a + 1) * S.order = a * S.order + S.order := by ring
    have eT : a * S.order + S.order ≤ S.levels := by
      have h2 := Nat.mul_le_mul_right S.order (show a + 1 ≤ S.levels / S.order by omega)
      rw [eA] at h2
      omega
    have below : ∀ k, k ∈ List.range' ((a - 1) * S.order) S.order → ∀ l ∈ stencil S.penalty.left k,
        (a * S.order ≤ k + S.order ∧ k < a * S.order) ∧ a * S.order ≤ l + S.order ∧ l < a * S.order + S.order := by
      intro k hk l hl
      rw [List.mem_range'_1] at hk
      have hq : k / S.order = a - 1 := Nat.div_eq_of_lt_le hk.1 (by rw [show a - 1 + 1 = a by omega]; omega)
      have := (penalty_range E (by omega) k (by omega)).1 (by omega)
      rw [hq] at this
      rw [mem_stencil, this.1, this.2] at hl
      omega
    have above : ∀ k, k ∈ List.range' (a * S.order) S.order → ∀ l ∈ stencil S.penalty.right k,
        (a * S.order ≤ k ∧ k < a * S.order + S.order) ∧ a * S.order ≤ l + S.order ∧ l < a * S.order + S.order := by
      intro k hk l hl
      rw [List.mem_range'_1] at hk
      have hq : k / S.order = a := Nat.div_eq_of_lt_le hk.1 (by rw [eA]; exact hk.2)
      have := (penalty_range E (by omega) k (by omega)).2 (by omega)
      rw [hq] at this
      rw [mem_stencil, this.2] at hl
      omega
    unfold upwindLevelUpdates at hu
    dsimp only at hu
    rw [hper] at hu
    simp only [List.mem_append, List.mem_flatMap, List.mem_map] at hu
    obtain ((⟨k, hk, l, hl, rfl⟩ | ⟨k, hk, l, hl, rfl⟩) | ⟨k, hk, l, hl, rfl⟩) | ⟨k, hk, l, hl, rfl⟩ := hu
    · have := below k hk l hl
      apply inBand_of <;> simp only [upd, vec] <;> omega
    · have := above k hk l hl
      apply inBand_of <;> simp only [upd, vec] <;> omega
    · have := below k hk l hl
      apply inBand_of <;> simp only [upd, vec] <;> omega
    · have := above k hk l hl
      apply inBand_of <;> simp only [upd, vec] <;> omega
  intro u hu
  unfold jacobianUpdates at hu
  simp only [List.mem_append] at hu
  obtain (((((hu | hu) | hu) | hu) | hu) | hu) | hu := hu
  · obtain ⟨k, hk, hu⟩ := List.mem_flatMap.1 hu
    rw [List.mem_range] at hk
    have h1 := hblock k
    have h2 := hlast k hk
    unfold fluxUpdates at hu
    obtain ⟨m, hmem, hu⟩ := List.mem_flatMap.1 hu
    obtain ⟨r1, r2⟩ := diffEN_range E k hk
    rw [mem_stencil, r1, r2] at hmem
    rcases List.mem_append.1 hu with hu | hu
    · split_ifs at hu
      · simp only [List.mem_cons, List.not_mem_nil, or_false] at hu
        rcases hu with rfl | rfl
        · apply inBand_of <;> simp only [upd, vec] <;> omega
        · apply inBand_of <;> simp only [upd, vec] <;> omega
      · simp at hu
    · obtain ⟨l, hl, hu⟩ := List.mem_flatMap.1 hu
      obtain ⟨t1, -, t3⟩ := toInterfaces_range T hn hN hm m (by omega)
      have t := t1 (k / S.order) ((Nat.div_lt_iff_lt_mul hn).2 (by rw [← hN]; exact hk)) (by omega) (by omega)
      rw [mem_stencil] at hl
      simp only [List.mem_cons, List.not_mem_nil, or_false] at hu
      rcases hu with rfl | rfl
      · apply inBand_of <;> simp only [upd, vec] <;> omega
      · apply inBand_of <;> simp only [upd, vec] <;> omega
  · obtain ⟨k, hk, hu⟩ := List.mem_flatMap.1 hu
    rw [List.mem_range'_1] at hk
    unfold pressureUpdates at hu
    dsimp only at hu
    rcases List.mem_append.1 hu with hu | hu
    · obtain ⟨m, hmem, rfl⟩ := List.mem_map.1 hu
      rw [mem_stencil] at hmem
      obtain ⟨r1, r2⟩ := diffNE_range E k (by omega) (by omega)
      have h1 := r1 m hmem.1 hmem.2
      have h2 := hblock m
      constructor
      · simp only [upd, vec]
        omega
      · intro hv
        have hc : (S.diffNE.row k).coeff m ≠ 0 := fun h => hv (by simp [upd, h])
        have := r2 m hc
        simp only [upd, vec]
        omega
    · obtain ⟨l, hl, hu⟩ := List.mem_flatMap.1 hu
      obtain ⟨-, t2, t3⟩ := toInterfaces_range T hn hN hm k (by omega)
      have t := t2 (by omega) (by omega)
      rw [mem_stencil] at hl
      simp only [List.mem_cons, List.not_mem_nil, or_false] at hu
      rcases hu with rfl | rfl
      · apply inBand_of <;> simp only [upd, vec] <;> omega
      · apply inBand_of <;> simp only [upd, vec] <;> omega
  · obtain ⟨k, hk, hu⟩ := List.mem_flatMap.1 hu
    rw [List.mem_range'_1] at hk
    unfold clarkUpdates at hu
    obtain ⟨l, hl, hu⟩ := List.mem_flatMap.1 hu
    obtain ⟨m, hmem, rfl⟩ := List.mem_map.1 hu
    rw [mem_stencil] at hl hmem
    obtain ⟨r1, r2⟩ := diffNE_range E k (by omega) (by omega)
    have h1 := r1 l hl.1 hl.2
    obtain ⟨t1, t2⟩ := toLevels_range T hn hN l (by omega)
    rw [t1, t2] at hmem
    have h2 := hblock l
    have h3 := hlast l (by omega)
    constructor
    · simp only [upd, vec]
      omega
    · intro hv
      have hc : (S.diffNE.row k).coeff l ≠ 0 := fun h => hv (by simp [upd, h])
      have := r2 l hc
      simp only [upd, vec]
      omega
  · exact hlev 2 (Or.inl rfl) u hu
  · have hon : onEdge S 3 = true := by simp [onEdge, hL.1]
    unfold upwindUpdates at hu
    rw [hon, if_pos rfl] at hu
    unfold upwindEdgeUpdates at hu
    rcases List.mem_append.1 hu with hu | hu
    · obtain ⟨k, hk, rfl⟩ := List.mem_map.1 hu
      rw [List.mem_range] at hk
      apply inBand_of <;> simp only [upd, vec] <;> omega
    · obtain ⟨k, hk, hu⟩ := List.mem_flatMap.1 hu
      obtain ⟨l, hl, rfl⟩ := List.mem_map.1 hu
      rw [List.mem_range] at hk
      rw [mem_stencil] at hl
      have := second_range T hn hN k (by omega)
      apply inBand_of <;> simp only [upd, vec] <;> omega
  · exact hlev 4 (Or.inr rfl) u hu
  · unfold timeUpdates at hu
    obtain ⟨k, hk, hu⟩ := List.mem_flatMap.1 hu
    rw [List.mem_range] at hk
    simp only [List.mem_cons, List.not_mem_nil, or_false] at hu
    rcases hu with rfl | rfl | rfl
    · apply inBand_of <;> simp only [upd, vec] <;> omega
    · apply inBand_of <;> simp only [upd, vec] <;> omega
    · apply inBand_of <;> simp only [upd, vec] <;> omega

/-- **C91 (the matrix of the solver).**  For finite elements, the matrix that the solver reads from the band storage, times any
vector, is the Jacobian times the vector. -/
theorem C91_stored (E : Elements S node edge gauss lob) (T : Stencils S node edge sNode sEdge gauss lob) (hL : Lorenz S)
    {d : Nat} (hd : offDiagonals S = some d) (G : Metric) (M : Memory) (x y : Nat → ℝ) (i : Nat) :
    ∑ j ∈ range (3 * (S.levels + 1)), banded d (store d (jacobianUpdates S G M x)) i j * y j =
      product (jacobianUpdates S G M x) y i := by
  have h := C91_in_band E T hL hd G M x
  exact C91_solver d _ _ (fun u hu => (h u hu).1) (fun u hu => (h u hu).2) y i

end

end Verif.Vdyn
