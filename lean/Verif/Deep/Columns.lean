import Verif.Deep.Spec
import Verif.Vdyn.ExplicitProps
import Verif.Vdyn.TracerExamples
import Verif.Whole.Conserve

/-!
# The vertical steps conserve the mass of air of the grid
-/

namespace Verif.Vdyn

open Finset

/-- A sweep, whatever its steps read from memory. -/
theorem sweep_any (step : Memory → Place → State → ColumnRes) (leave : Place → Memory → Memory) (l : List Place)
    (hl : l.Nodup) (M : Memory) (P P' : Columns) (h : sweep step leave l M P = .ok P') :
    (∀ x ∈ l, ∃ M', step M' x (P x) = .ok (P' x)) ∧ ∀ x, x ∉ l → P' x = P x := by
  induction l generalizing M P with
  | nil => simp only [sweep, PatchRes.ok.injEq] at h; subst h; simp
  | cons y l ih =>
    obtain ⟨hy, hl⟩ := List.nodup_cons.1 hl
    unfold sweep at h
    cases hs : step M y (P y) with
    | exc => rw [hs] at h; simp at h
    | ub => rw [hs] at h; simp at h
    | ok V =>
      rw [hs] at h
      dsimp only at h
      obtain ⟨j1, j2⟩ := ih hl (leave y M) (Function.update P y V) h
      have hother : ∀ x ∈ l, Function.update P y V x = P x := fun x hx =>
        Function.update_of_ne (fun h => hy (by rw [← h]; exact hx)) _ _
      refine ⟨fun x hx => ?_, fun x hx => ?_⟩
      · rcases List.mem_cons.1 hx with rfl | hx
        · exact ⟨M, by rw [j2 x hy, Function.update_self, hs]⟩
        · obtain ⟨M', hM⟩ := j1 x hx
          exact ⟨M', by rw [← hM, hother x hx]⟩
      · rw [j2 x (fun h => hx (by simp [h])), Function.update_of_ne (fun h => hx (by simp [h]))]

section
variable {S : Setup} {node edge sNode sEdge : Nat → ℝ} {gauss lob : List ℝ × List ℝ}

/-- The implicit terms, taken explicitly, conserve the mass of a column, for any time step, and density times potential
temperature without uniform diffusion. -/
theorem terms_mass (E : Elements S node edge gauss lob) (T : Stencils S node edge sNode sEdge gauss lob)
    (hNN : SecondOnLevels S node edge gauss lob) (hL : Lorenz S) (href : S.useRef = true) (solve : BandSolver)
    (G : Metric) (hJ : ∀ k < S.levels, G.jac k ≠ 0) (e : Bool) (D : Data) (M : Memory) (count : Nat)
    (q ref : Nat → Nat → ℝ) (U V : State) (h : termsColumn solve S G e D M count q ref U = .ok V)
    (pJ : Nat → Polynomial ℝ) (hpJ : Fits S node pJ G.jac)
    (hjoin : ∀ a < S.levels / S.order - 1, Column.jump S.order edge pJ a = 0) (c : Nat)
    (hc : c = 4 ∨ (c = 2 ∧ S.uniform = false)) :
    overLevels S edge gauss (fun k => G.jac k * V.node c k) = overLevels S edge gauss (fun k => G.jac k * U.node c k) := by
  have w0 : windBefore S G D 0 = 0 := wind_outside S G _ 0 (by omega)
  have w1 : windBefore S G D S.levels = 0 := if_pos (Or.inr le_rfl)
  have hdiv : ∀ z : Nat → ℝ, overLevels S edge gauss (fun k => G.jac k * divergence S G (windBefore S G D) z k) = 0 :=
    fun z => divergence_total E G hJ _ (by rw [w0]; ring) (by rw [w1]; ring)
  have hsm : ∀ v z : Nat → ℝ, overLevels S edge gauss (fun k => G.jac k * smoothing S v z k) = 0 :=
    fun v z => penalty_total E _ pJ hpJ hjoin _ _
  have htr := fun k => C95_terms E T hNN hL href solve G e D M count q ref U V h k
  have same : ∀ k < S.levels, V.node c k = U.node c k - S.dt * (divergence S G (windBefore S G D) (D.node c) k -
      smoothing S (fun m => |windBefore S G D m|) (D.node c) k) := by
    intro k hk
    rcases hc with rfl | ⟨rfl, hu⟩
    · exact (htr k).1 hk
    · rw [(htr k).2.1 hk]
      unfold diffuse
      rw [hu]
      simp
  rw [overLevels_congr S edge gauss _ (fun k => G.jac k * U.node c k - S.dt * (G.jac k * divergence S G (windBefore S G D) (D.node c) k -
    G.jac k * smoothing S (fun m => |windBefore S G D m|) (D.node c) k)) (fun k hk => by rw [same k hk]; ring),
    overLevels_sub, overLevels_mul, overLevels_sub, hdiv, hsm]
  ring

/-- The implicit step on a patch: mass, and density times potential temperature without uniform diffusion. -/
theorem implicit_total (E : Elements S node edge gauss lob) (T : Stencils S node edge sNode sEdge gauss lob)
    (hNN : SecondOnLevels S node edge gauss lob) (hL : Lorenz S) (href : S.useRef = true) (solve : BandSolver) (hs : Lapack solve)
    (hdt : S.dt ≠ 0) (F : Fixed) (count : Nat) (B : Box) (p : Nat) (hB : B.Whole p) (init : Columns)
    (leave : Place → Columns → Memory → Memory) (M : Memory) (P P' : Columns)
    (hP : implicitPatch solve S F count false B p false init leave M P = .ok P') (x : Place) (hx : B.Inside x)
    (hJ : ∀ k < S.levels, (F.metric (B.owner p x)).jac k ≠ 0) (pJ : Nat → Polynomial ℝ)
    (hpJ : Fits S node pJ (F.metric (B.owner p x)).jac)
    (hjoin : ∀ a < S.levels / S.order - 1, Column.jump S.order edge pJ a = 0) (c : Nat)
    (hc : c = 4 ∨ (c = 2 ∧ S.uniform = false)) :
    overLevels S edge gauss (fun k => (F.metric (B.owner p x)).jac k * (P' x).node c k) =
      overLevels S edge gauss (fun k => (F.metric (B.owner p x)).jac k * (init (B.owner p x)).node c k) := by
  obtain ⟨V, hV, a1, -, -⟩ := (C94_columns E T hNN hL href solve hs hdt F count B p hB false init leave M M P P' hP x).2 hx
  obtain ⟨W, t, h1, -, rfl⟩ := step_halves solve F count M _ _ _ V hV
  have hcc : c = 2 ∨ c = 3 ∨ c = 4 := by omega
  obtain ⟨m4, m2⟩ := C92_conserved_partial E T hNN hL href solve hs _ hJ _ M _ W h1 hdt pJ hpJ hjoin
  have key : overLevels S edge gauss (fun k => (F.metric (B.owner p x)).jac k * W.node c k) =
      overLevels S edge gauss (fun k => (F.metric (B.owner p x)).jac k * (init (B.owner p x)).node c k) := by
    rcases hc with rfl | ⟨rfl, hu⟩
    · exact m4
    · exact m2 hu
  rw [← key]
  exact overLevels_congr S edge gauss _ _ fun k hk => by rw [a1, if_pos ⟨hcc, hk⟩]

end

end Verif.Vdyn

namespace Verif.Deep

open Verif.Vdyn (Elements Stencils SecondOnLevels Lorenz Lapack Fits overLevels)
open Verif.Column (jump levelWeight)

variable (A : Atmos)

/-- What is conserved, and lives on levels. -/
def Atmos.Kept (c : Nat) : Prop := A.onEdge c = false ∧ (c = 4 ∨ (c = 2 ∧ A.column.uniform = false))

variable {c : Nat} (hc : A.onEdge c = false) (hk : A.Kept c)

include hc in
theorem Atmos.gather_four (P : Fin A.W.count → Vdyn.Columns) (i : Fin A.W.count) (iA iB k : Nat) :
    (A.gather P).1 i c iA iB k = (P i (iA, iB)).node c k := by
  simp [Atmos.gather, hc]

include hk in
theorem Atmos.columns_four (y : A.W.Field × A.W.Field) (i : Fin A.W.count) (x : Vdyn.Place) (k : Nat)
    (hl : k < A.W.levels) : (A.columns (A.lift y i) x).node c k = y.1 i c x.1 x.2 k := by
  have h5 : c < 5 := by rcases hk.2 with h | h <;> omega
  simp [Atmos.columns, Atmos.lift, hk.1, hl, h5]

/-- Mass by columns. -/
theorem Atmos.mass_columns (v : A.W.Field) : A.total c v =
    ∑ n, ∑ a ∈ Finset.range (A.W.tile n).M.G.S.elemA, ∑ b ∈ Finset.range (A.W.tile n).M.G.S.elemB,
      ∑ i ∈ Finset.range A.W.order, ∑ j ∈ Finset.range A.W.order,
        A.W.weight i * (A.W.tile n).M.G.deltaA * A.W.weight j * (A.W.tile n).M.G.deltaB *
        ∑ k ∈ Finset.range A.W.levels, A.W.level k *
          ((A.W.tile n).M.jacNode (A.W.halo + a * A.W.order + i) (A.W.halo + b * A.W.order + j) k *
          v n c (A.W.halo + a * A.W.order + i) (A.W.halo + b * A.W.order + j) k) := by
  unfold Atmos.total
  refine Finset.sum_congr rfl fun n _ => Finset.sum_congr rfl fun a _ => Finset.sum_congr rfl fun b _ => ?_
  rw [Finset.sum_comm]
  refine Finset.sum_congr rfl fun i _ => ?_
  rw [Finset.sum_comm]
  refine Finset.sum_congr rfl fun j _ => ?_
  rw [Finset.mul_sum]
  refine Finset.sum_congr rfl fun k _ => ?_
  ring

theorem Atmos.mass_of_columns (hW : A.W.Tiled) (v w : A.W.Field)
    (h : ∀ n iA iB, Horiz.Interior (A.W.tile n).M.G.S iA iB →
      ∑ k ∈ Finset.range A.W.levels, A.W.level k * ((A.W.tile n).M.jacNode iA iB k * v n c iA iB k) =
      ∑ k ∈ Finset.range A.W.levels, A.W.level k * ((A.W.tile n).M.jacNode iA iB k * w n c iA iB k)) :
    A.total c v = A.total c w := by
  rw [A.mass_columns, A.mass_columns]
  refine Finset.sum_congr rfl fun n _ => Finset.sum_congr rfl fun a ha => Finset.sum_congr rfl fun b hb =>
    Finset.sum_congr rfl fun i hi => Finset.sum_congr rfl fun j hj => ?_
  rw [Finset.mem_range] at ha hb hi hj
  rw [h n _ _ (A.W.element_interior hW n a b i j ha hb hi hj)]

section
variable {node edge sNode sEdge : Nat → ℝ} {gauss lob : List ℝ × List ℝ}
  (hW : A.W.Tiled) (hC : A.Columnar node edge sNode sEdge gauss lob)

include hC in
/-- The integral over a column. -/
theorem Atmos.over (dt : ℝ) (f : Nat → ℝ) :
    overLevels (A.setup dt) edge gauss f = ∑ k ∈ Finset.range A.W.levels, A.W.level k * f k := by
  unfold overLevels
  show ∑ k ∈ Finset.range A.column.levels, levelWeight A.column.order edge gauss k * f k = _
  rw [hC.levels]
  refine Finset.sum_congr rfl fun k hk => ?_
  rw [hC.weights k (Finset.mem_range.1 hk)]

theorem Atmos.inside (i : Fin A.W.count) (iA iB : Nat) :
    (A.box i).Inside (iA, iB) ↔ Horiz.Interior (A.W.tile i).M.G.S iA iB := by
  simp [Atmos.box, Vdyn.Box.Inside, Horiz.Interior]

include hW in
theorem Atmos.whole (i : Fin A.W.count) : (A.box i).Whole A.W.order := by
  obtain ⟨s1, -⟩ := hW.shape i
  refine ⟨hW.order, ?_, ?_⟩ <;> simp [Atmos.box, s1]

variable {a b : ℝ} {density : Nat → Int → Int → ℝ} (hM : A.Measured a b density)

include hW hM in
theorem Atmos.jac_ne (i : Fin A.W.count) (iA iB k : Nat) (hI : Horiz.Interior (A.W.tile i).M.G.S iA iB)
    (hk : k < A.W.levels) : (A.W.tile i).M.jacNode iA iB k ≠ 0 := by
  rw [hM.jacobian i iA iB k hI hk]
  have h := A.W.contains_node hW i _ _ _ (A.W.place_in hW i iA iB hI)
  rw [A.W.mem_nodes] at h
  exact hM.regular k _ _ hk h.2.1.1 h.2.1.2 h.2.2.1 h.2.2.2

include hk hW hC hM in
/-- The terms in one column. -/
theorem Atmos.terms_column (dt : ℝ) (e : Bool) (i : Fin A.W.count) (iA iB : Nat)
    (hI : Horiz.Interior (A.W.tile i).M.G.S iA iB) (D : Vdyn.Data) (M : Vdyn.Memory) (count : Nat)
    (q ref : Nat → Nat → ℝ) (U V : Vdyn.State)
    (h : Vdyn.termsColumn A.solve (A.setup dt) ((A.vertical i).metric (iA, iB)) e D M count q ref U = .ok V) :
    ∑ k ∈ Finset.range A.W.levels, A.W.level k * ((A.W.tile i).M.jacNode iA iB k * V.node c k) =
      ∑ k ∈ Finset.range A.W.levels, A.W.level k * ((A.W.tile i).M.jacNode iA iB k * U.node c k) := by
  obtain ⟨p, hp, hj⟩ := hC.smooth i iA iB hI
  have := Vdyn.terms_mass (Vdyn.elements_dt hC.elements dt) (Vdyn.stencils_dt hC.stencils dt) hC.second hC.lorenz hC.ref
    A.solve ((A.vertical i).metric (iA, iB)) (fun k hk => A.jac_ne hW hM i iA iB k hI (by rw [← hC.levels]; exact hk))
    e D M count q ref U V h p hp hj c hk.2
  rw [← A.over hC dt, ← A.over hC dt]
  exact this

theorem Atmos.collect_cases (R : Fin A.W.count → Vdyn.PatchRes) (y : A.W.Field × A.W.Field) :
    A.collect R y = y ∨ ∃ P, (∀ i, R i = .ok (P i)) ∧ A.collect R y = A.gather P := by
  classical
  unfold Atmos.collect
  split_ifs with h
  · refine .inr ⟨fun i => keep (R i), fun i => ?_, rfl⟩
    obtain ⟨P, hP⟩ := h i
    simp only [hP, keep]
  · exact .inl rfl

include hk hW hC hM in
theorem Atmos.vertical_mass (dt : ℝ) (x y : A.W.Field × A.W.Field) : A.total c (A.stepVertical dt x y).1 = A.total c y.1 := by
  unfold Atmos.stepVertical
  rcases A.collect_cases _ y with h | ⟨P, hP, h⟩
  · rw [h]
  rw [h]
  refine A.mass_of_columns hW _ _ fun i iA iB hI => ?_
  simp only [A.gather_four hk.1]
  obtain ⟨s1, -⟩ := Vdyn.sweep_any _ _ _ (Vdyn.interior_nodup _) _ _ _ (hP i)
  obtain ⟨M, hM'⟩ := s1 (iA, iB) ((Vdyn.mem_interior _ _).2 ((A.inside i iA iB).2 hI))
  obtain ⟨V, h1, h2, h3, -, h4⟩ := Vdyn.C95_rest (Vdyn.elements_dt hC.elements dt) _ _ _ _ _ _ _ _ _ _ hM'
  have e4 : ∀ k, (P i (iA, iB)).node c k = V.node c k := fun k => h4 c k (.inl ⟨by rcases hk.2 with h | h <;> omega, by rcases hk.2 with h | h <;> omega⟩)
  simp only [e4]
  have fin : ∑ k ∈ Finset.range A.W.levels, A.W.level k * ((A.W.tile i).M.jacNode iA iB k * V.node c k) =
      ∑ k ∈ Finset.range A.W.levels, A.W.level k *
        ((A.W.tile i).M.jacNode iA iB k * (A.columns (A.lift y i) (iA, iB)).node c k) := by
    cases he : A.fullyExplicit with
    | false => rw [h2 he]
    | true => exact A.terms_column hk hW hC hM dt true i iA iB hI _ _ _ _ _ _ _ (h1 he)
  rw [fin]
  exact Finset.sum_congr rfl fun k hl => by rw [A.columns_four hk y i _ k (Finset.mem_range.1 hl)]

include hk hW hC hM in
theorem Atmos.terms_conserve (dt : ℝ) (x y : A.W.Field × A.W.Field) : A.total c (A.stepTerms dt x y).1 = A.total c y.1 := by
  unfold Atmos.stepTerms
  rcases A.collect_cases _ y with h | ⟨P, hP, h⟩
  · rw [h]
  rw [h]
  refine A.mass_of_columns hW _ _ fun i iA iB hI => ?_
  simp only [A.gather_four hk.1]
  obtain ⟨s1, -⟩ := Vdyn.sweep_any _ _ _ (Vdyn.interior_nodup _) _ _ _ (hP i)
  obtain ⟨M, hM'⟩ := s1 (iA, iB) ((Vdyn.mem_interior _ _).2 ((A.inside i iA iB).2 hI))
  rw [A.terms_column hk hW hC hM dt _ i iA iB hI _ _ _ _ _ _ _ hM']
  exact Finset.sum_congr rfl fun k hl => by rw [A.columns_four hk y i _ k (Finset.mem_range.1 hl)]

include hW in
/-- The column that stands for another is inside too, and stands for itself. -/
theorem Atmos.first_inside (i : Fin A.W.count) (iA iB : Nat) (hI : Horiz.Interior (A.W.tile i).M.G.S iA iB) :
    Horiz.Interior (A.W.tile i).M.G.S (A.first i (iA, iB)).1 (A.first i (iA, iB)).2 ∧
      A.first i (A.first i (iA, iB)) = A.first i (iA, iB) := by
  have hx := (A.inside i iA iB).2 hI
  have oa := Vdyn.stands_idem (A.box i).aBegin (A.box i).aWidth A.W.order iA hW.order ⟨hx.1, hx.2.1⟩
  have ob := Vdyn.stands_idem (A.box i).bBegin (A.box i).bWidth A.W.order iB hW.order ⟨hx.2.2.1, hx.2.2.2⟩
  exact ⟨(A.inside i _ _).1 ⟨oa.2.1, oa.2.2, ob.2.1, ob.2.2⟩, Prod.ext oa.1 ob.1⟩

include hk hW hC hM in
/-- The implicit step, from initial data in which columns at the same place agree. -/
theorem Atmos.implicit_mass (dt : ℝ) (x y : A.W.Field × A.W.Field) (hx : A.Joined x.1) (m : ℝ) (hm : A.total c x.1 = m)
    (hn : A.total c y.1 = m) : A.total c (A.stepImplicit dt x y).1 = m := by
  classical
  unfold Atmos.stepImplicit
  split_ifs with hdt
  · exact hn
  rcases A.collect_cases _ y with h | ⟨P, hP, h⟩
  · rw [h]; exact hn
  rw [h]
  cases he : A.fullyExplicit with
  | true =>
    rw [← hn]
    refine A.mass_of_columns hW _ _ fun i iA iB hI => ?_
    simp only [A.gather_four hk.1]
    have := hP i
    rw [he] at this
    simp only [Vdyn.implicitPatch, if_true, Vdyn.PatchRes.ok.injEq] at this
    rw [← this]
    exact Finset.sum_congr rfl fun k hl => by rw [A.columns_four hk y i _ k (Finset.mem_range.1 hl)]
  | false =>
    rw [← hm]
    refine A.mass_of_columns hW _ _ fun i iA iB hI => ?_
    simp only [A.gather_four hk.1]
    have hP := hP i
    rw [he] at hP
    obtain ⟨f1, -⟩ := A.first_inside hW i iA iB hI
    obtain ⟨p, hp, hj⟩ := hC.smooth i _ _ f1
    have := Vdyn.implicit_total (Vdyn.elements_dt hC.elements dt) (Vdyn.stencils_dt hC.stencils dt) hC.second hC.lorenz
      hC.ref A.solve hC.lapack hdt (A.vertical i) A.W.tracers (A.box i) A.W.order (A.whole hW i) _ _ _ _ _ hP (iA, iB)
      ((A.inside i iA iB).2 hI)
      (fun k hk => A.jac_ne hW hM i _ _ k f1 (by rw [← hC.levels]; exact hk)) p hp hj c hk.2
    have hmet := hC.metric i iA iB hI
    unfold Atmos.first at hmet
    have ov := A.over hC dt
    unfold Atmos.setup at ov
    rw [hmet, ov, ov] at this
    refine this.trans (Finset.sum_congr rfl fun k hl => ?_)
    rw [Finset.mem_range] at hl
    have h4 := hx i iA iB hI c (by rcases hk.2 with h | h <;> omega) k (by simp [Atmos.top, hk.1, hl])
    rw [A.columns_four hk x i _ k hl, h4]
    rfl

end

end Verif.Deep
