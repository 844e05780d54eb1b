import Verif.Whole.Mutual

/-!
# Copies are mutual on the plane and on the sphere
-/

namespace Verif.Whole

open Verif.Dss (twin twin_twin twin_cases twin_first twin_last)
open Verif.Panel (relativeCoord outside inside alongAlpha IsEdge IsPanel panelFromDirection opposingDirection switchParallel)
open Verif.Exchange (Dir)

/-! ### Plane -/

theorem wrap_in (N g : Int) (h0 : 0 ≤ g) (h1 : g < N) : wrap N g = g := by
  unfold wrap
  simp only
  rw [if_neg (by omega), if_neg (by omega)]

theorem wrap_low (N : Int) (hN : 1 ≤ N) : wrap N (-1) = N - 1 := by
  unfold wrap
  simp only
  split_ifs <;> omega

theorem wrap_high (N : Int) (hN : 1 ≤ N) : wrap N N = 0 := by
  unfold wrap
  simp only
  split_ifs <;> omega

/-- Around a periodic row. -/
theorem wrap_twin (p n g : Int) (hp : 2 ≤ p) (h0 : 0 ≤ g) (h1 : g < p * n) :
    (0 ≤ wrap (p * n) (twin p g) ∧ wrap (p * n) (twin p g) < p * n) ∧
      wrap (p * n) (twin p (wrap (p * n) (twin p g))) = g := by
  rcases twin_stays p n g hp h0 h1 with ⟨a, b⟩ | ⟨a, b⟩ | ⟨a, b⟩
  · rw [wrap_in _ _ a b, twin_twin p g hp, wrap_in _ _ h0 h1]
    exact ⟨⟨a, b⟩, rfl⟩
  · rw [b, wrap_low _ (by omega), twin_end p n hp, wrap_high _ (by omega)]
    omega
  · rw [b, wrap_high _ (by omega), twin_zero p hp, wrap_low _ (by omega)]
    omega

variable (W : World)

theorem World.see_plane (hk : W.kind = .plane) (p g h : Int) :
    W.see p g h = some (0, wrap (W.order * W.elemA) g, wrap (W.order * W.elemB) h) := by
  unfold World.see
  rw [hk]

theorem World.mutual_plane (hW : W.Tiled) (hk : W.kind = .plane) : W.Mutual (fun _ d => d) := by
  have ho : (2 : Int) ≤ W.order := by exact_mod_cast hW.order
  have opv : ∀ d n, W.op d n = (0, wrap (W.order * W.elemA) (W.shift d n).1, wrap (W.order * W.elemB) (W.shift d n).2) :=
    fun d n => by unfold World.op; rw [W.see_plane hk]; rfl
  have dgv : ∀ n, W.diag n = (0, wrap (W.order * W.elemA) (twin W.order n.2.1),
      wrap (W.order * W.elemB) (twin W.order n.2.2)) :=
    fun n => by unfold World.diag; rw [W.see_plane hk]; rfl
  have tri : ∀ n, ¬ W.Triple n := fun n => by unfold World.Triple; rw [W.see_plane hk]; simp
  have hp1 : W.kind.panels = 1 := by rw [hk]; rfl
  refine ⟨?_, ?_, ?_, ?_, fun d n _ => iff_of_false (tri _) (tri _)⟩
  · intro d n _
    unfold World.op
    rw [W.see_plane hk]
    rfl
  · rintro d ⟨p, g, h⟩ hn
    rw [W.mem_nodes] at hn
    obtain ⟨-, ⟨g0, g1⟩, h0, h1⟩ := hn
    rw [opv, W.mem_nodes, hp1]
    cases d
    · simp only [World.shift, Bool.false_eq_true, if_false]
      rw [wrap_in _ _ g0 g1]
      exact ⟨by omega, ⟨g0, g1⟩, (wrap_twin _ _ h ho h0 h1).1⟩
    · simp only [World.shift, if_true]
      rw [wrap_in _ h h0 h1]
      exact ⟨by omega, (wrap_twin _ _ g ho g0 g1).1, h0, h1⟩
  · rintro d ⟨p, g, h⟩ hn
    rw [W.mem_nodes, hp1] at hn
    obtain ⟨⟨p0, p1⟩, ⟨g0, g1⟩, h0, h1⟩ := hn
    refine ⟨?_, rfl⟩
    rw [opv, opv]
    cases d
    · simp only [World.shift, Bool.false_eq_true, if_false]
      rw [wrap_in _ _ g0 g1, wrap_in _ _ g0 g1, (wrap_twin _ _ h ho h0 h1).2]
      rw [show p = 0 by omega]
    · simp only [World.shift, if_true]
      rw [wrap_in _ h h0 h1, wrap_in _ h h0 h1, (wrap_twin _ _ g ho g0 g1).2]
      rw [show p = 0 by omega]
  · rintro ⟨p, g, h⟩ hn -
    rw [W.mem_nodes, hp1] at hn
    obtain ⟨⟨p0, p1⟩, ⟨g0, g1⟩, h0, h1⟩ := hn
    refine ⟨?_, tri _, ?_⟩
    · rw [dgv, W.mem_nodes, hp1]
      exact ⟨by omega, (wrap_twin _ _ g ho g0 g1).1, (wrap_twin _ _ h ho h0 h1).1⟩
    · rw [dgv, dgv]
      simp only
      rw [(wrap_twin _ _ g ho g0 g1).2, (wrap_twin _ _ h ho h0 h1).2, show p = 0 by omega]

/-! ### Sphere -/

/-- Which direction leads back: the other one if the panels turn alpha into beta. -/
def World.back (n : Int × Int × Int) (d : Bool) : Bool :=
  match relativeCoord (W.order * W.elemA) n.1 (W.shift d n).1 (W.shift d n).2 with
  | some r => d != r.switchAB
  | none => d

theorem rel_in (N p g h : Int) (g0 : 0 ≤ g) (g1 : g < N) (h0 : 0 ≤ h) (h1 : h < N) :
    relativeCoord N p g h = some ⟨p, g, h, false, false, false⟩ := by
  unfold relativeCoord
  rw [if_pos ⟨h0, g0, h1, g1⟩]

theorem World.see_in (hk : W.kind = .sphere) (p g h : Int) (g0 : 0 ≤ g) (g1 : g < W.order * W.elemA) (h0 : 0 ≤ h)
    (h1 : h < W.order * W.elemA) : W.see p g h = some (p, g, h) := by
  unfold World.see
  rw [hk]
  simp only
  rw [rel_in _ p g h g0 g1 h0 h1]
  simp only
  rw [if_neg (by omega)]

theorem World.see_out (hk : W.kind = .sphere) (p g h : Int) (hg : g < 0 ∨ W.order * W.elemA ≤ g)
    (hh : h < 0 ∨ W.order * W.elemA ≤ h) : W.see p g h = none := by
  unfold World.see
  rw [hk]
  simp only
  have : relativeCoord (W.order * W.elemA) p g h = some ⟨Panel.invalidPanel, -1, -1, false, false, false⟩ := by
    unfold relativeCoord
    rw [if_neg (by omega), if_pos ⟨hg, hh⟩]
  rw [this]
  simp

/-- Across an edge of a panel and back. -/
theorem World.cross (hk : W.kind = .sphere) (ho : (2 : Int) ≤ W.order) (p : Int) (hp : IsPanel p) (e : Dir)
    (he : IsEdge e) : ∃ (q : Int) (e' : Dir) (r : Int → Int), ∀ t : Int, 0 ≤ t → t < W.order * W.elemA → IsPanel q ∧ IsEdge e' ∧
      (0 ≤ r t ∧ r t < W.order * W.elemA) ∧ r (r t) = t ∧ r (twin W.order t) = twin W.order (r t) ∧
      (r t = t ∨ r t = W.order * W.elemA - 1 - t) ∧
      W.see p (outside (W.order * W.elemA) e 0 t).1 (outside (W.order * W.elemA) e 0 t).2 =
        some (q, inside (W.order * W.elemA) e' 0 (r t)) ∧
      W.see q (outside (W.order * W.elemA) e' 0 t).1 (outside (W.order * W.elemA) e' 0 t).2 =
        some (p, inside (W.order * W.elemA) e 0 (r t)) ∧
      (∃ f, relativeCoord (W.order * W.elemA) p (outside (W.order * W.elemA) e 0 t).1
        (outside (W.order * W.elemA) e 0 t).2 = some f ∧ f.switchAB = (alongAlpha e != alongAlpha e')) ∧
      (∃ f, relativeCoord (W.order * W.elemA) q (outside (W.order * W.elemA) e' 0 t).1
        (outside (W.order * W.elemA) e' 0 t).2 = some f ∧ f.switchAB = (alongAlpha e' != alongAlpha e)) := by
  obtain ⟨q, e', h1, h2, h3, h4, h5, _, _, _, h9, h10⟩ := Panel.C30_edges p hp e he
  refine ⟨q, e', fun t => if switchParallel p q then W.order * W.elemA - 1 - t else t, fun t ht ht' => ?_⟩
  have hc := Panel.crossing (W.order * W.elemA) p q 0 t hp e e' he le_rfl ht ht' h1 h5
  have hc' := Panel.crossing (W.order * W.elemA) q p 0 t h2 e' e h4 le_rfl ht ht' h9 h10
  rw [Panel.switch_symm p q hp h2] at hc'
  have see : ∀ (p q g h : Int) (e : Dir) (s : Int) (x y z : Bool), IsEdge e → 0 ≤ s → s < W.order * W.elemA →
      relativeCoord (W.order * W.elemA) p g h = some ⟨q, (inside (W.order * W.elemA) e 0 s).1,
        (inside (W.order * W.elemA) e 0 s).2, x, y, z⟩ →
      W.see p g h = some (q, inside (W.order * W.elemA) e 0 s) := by
    intro p q g h e s x y z he hs hs' hr
    unfold World.see
    rw [hk]
    simp only
    rw [hr]
    simp only
    rw [if_neg]
    rcases he with rfl | rfl | rfl | rfl <;> simp only [inside] <;> omega
  refine ⟨h2, h4, ?_, ?_, ?_, ?_, ?_, ?_, ⟨_, hc, rfl⟩, ⟨_, hc', rfl⟩⟩
  · dsimp only; split_ifs <;> omega
  · dsimp only; split_ifs <;> omega
  · dsimp only
    split_ifs
    · exact (twin_mirror _ _ _ ho).symm
    · rfl
  · dsimp only; split_ifs <;> simp
  · exact see _ _ _ _ e' _ _ _ _ h4 (by dsimp only; split_ifs <;> omega) (by dsimp only; split_ifs <;> omega) hc
  · exact see _ _ _ _ e _ _ _ _ he (by dsimp only; split_ifs <;> omega) (by dsimp only; split_ifs <;> omega) hc'

/-- The edge of the panel that a step along alpha or beta leaves by. -/
theorem World.leaves (ho : (2 : Int) ≤ W.order) (d : Bool) (p g h : Int) (g0 : 0 ≤ g) (g1 : g < W.order * W.elemA)
    (h0 : 0 ≤ h) (h1 : h < W.order * W.elemA) :
    ((0 ≤ (W.shift d (p, g, h)).1 ∧ (W.shift d (p, g, h)).1 < W.order * W.elemA) ∧
      0 ≤ (W.shift d (p, g, h)).2 ∧ (W.shift d (p, g, h)).2 < W.order * W.elemA) ∨
    ∃ (e : Dir) (t : Int), IsEdge e ∧ alongAlpha e = d ∧ 0 ≤ t ∧ t < W.order * W.elemA ∧ (g, h) = inside (W.order * W.elemA) e 0 t := by
  cases d
  · rcases twin_stays W.order W.elemA h ho h0 h1 with ⟨a, b⟩ | ⟨a, -⟩ | ⟨a, -⟩
    · left
      simp only [World.shift, Bool.false_eq_true, if_false]
      exact ⟨⟨g0, g1⟩, a, b⟩
    · exact .inr ⟨.bottom, g, by simp [IsEdge], rfl, g0, g1, by simp [inside, a]⟩
    · exact .inr ⟨.top, g, by simp [IsEdge], rfl, g0, g1, by simp [inside, a]⟩
  · rcases twin_stays W.order W.elemA g ho g0 g1 with ⟨a, b⟩ | ⟨a, -⟩ | ⟨a, -⟩
    · left
      simp only [World.shift, if_true]
      exact ⟨⟨a, b⟩, h0, h1⟩
    · exact .inr ⟨.left, h, by simp [IsEdge], rfl, h0, h1, by simp [inside, a]⟩
    · exact .inr ⟨.right, h, by simp [IsEdge], rfl, h0, h1, by simp [inside, a]⟩

/-- Steps from a node next to an edge of its panel. -/
theorem World.edge_steps (ho : (2 : Int) ≤ W.order) (e : Dir) (he : IsEdge e) (q t : Int) :
    W.shift (alongAlpha e) (q, inside (W.order * W.elemA) e 0 t) = outside (W.order * W.elemA) e 0 t ∧
    (twin W.order (inside (W.order * W.elemA) e 0 t).1, twin W.order (inside (W.order * W.elemA) e 0 t).2) =
      outside (W.order * W.elemA) e 0 (twin W.order t) := by
  have z := twin_zero W.order ho
  have n := twin_end W.order W.elemA ho
  rcases he with rfl | rfl | rfl | rfl <;>
    simp [World.shift, alongAlpha, inside, outside, z, n]

theorem World.inside_on (hk : W.kind = .sphere) (hs : W.elemA = W.elemB) (q t : Int) (hq : IsPanel q) (e : Dir)
    (he : IsEdge e) (h0 : 0 ≤ t) (h1 : t < W.order * W.elemA) : (q, inside (W.order * W.elemA) e 0 t) ∈ W.nodes := by
  have : (q, inside (W.order * W.elemA) e 0 t) =
    (q, (inside (W.order * W.elemA) e 0 t).1, (inside (W.order * W.elemA) e 0 t).2) := rfl
  rw [this, W.mem_nodes, ← hs, hk]
  refine ⟨⟨hq.1, by have := hq.2; show q < 6; omega⟩, ?_⟩
  rcases he with rfl | rfl | rfl | rfl <;> simp only [inside] <;> omega

/-- Where three panels meet, seen along an edge. -/
theorem World.triple_edge (hk : W.kind = .sphere) (ho : (2 : Int) ≤ W.order) (e : Dir) (he : IsEdge e) (q t : Int)
    (hq : IsPanel q) :
    W.Triple (q, inside (W.order * W.elemA) e 0 t) ↔ ¬ (0 ≤ twin W.order t ∧ twin W.order t < W.order * W.elemA) := by
  unfold World.Triple
  have h2 := (W.edge_steps ho e he q t).2
  have h3 := congrArg Prod.fst h2
  have h4 := congrArg Prod.snd h2
  simp only at h3 h4
  show W.see q (twin W.order (inside (W.order * W.elemA) e 0 t).1) (twin W.order (inside (W.order * W.elemA) e 0 t).2) =
    none ↔ _
  rw [h3, h4]
  constructor
  · intro hn hin
    obtain ⟨q', e', r, hr⟩ := W.cross hk ho q hq e he
    have := (hr _ hin.1 hin.2).2.2.2.2.2.2.1
    rw [hn] at this
    simp at this
  · intro hout
    refine W.see_out hk _ _ _ ?_ ?_ <;> rcases he with rfl | rfl | rfl | rfl <;> simp only [outside] <;> omega

theorem World.mutual_sphere (hW : W.Tiled) (hk : W.kind = .sphere) : W.Mutual W.back := by
  have ho : (2 : Int) ≤ W.order := by exact_mod_cast hW.order
  have hs := hW.square hk
  have pan : ∀ p : Int, (0 ≤ p ∧ p < W.kind.panels) → IsPanel p := fun p h => by
    have h2 := h.2
    rw [hk] at h2
    have h3 : p < 6 := h2
    exact ⟨h.1, by omega⟩
  -- the step along an edge
  have step : ∀ p, IsPanel p → ∀ e, IsEdge e → ∀ t, 0 ≤ t → t < (W.order : Int) * W.elemA →
      ∃ q e' s, IsPanel q ∧ IsEdge e' ∧ (0 ≤ s ∧ s < (W.order : Int) * W.elemA) ∧
        W.see p (outside (W.order * W.elemA) e 0 t).1 (outside (W.order * W.elemA) e 0 t).2 =
          some (q, inside (W.order * W.elemA) e' 0 s) ∧
        W.see q (outside (W.order * W.elemA) e' 0 s).1 (outside (W.order * W.elemA) e' 0 s).2 =
          some (p, inside (W.order * W.elemA) e 0 t) ∧
        W.back (p, inside (W.order * W.elemA) e 0 t) (alongAlpha e) = alongAlpha e' ∧
        W.back (q, inside (W.order * W.elemA) e' 0 s) (alongAlpha e') = alongAlpha e ∧
        ((0 ≤ twin W.order s ∧ twin W.order s < (W.order : Int) * W.elemA) ↔
          (0 ≤ twin W.order t ∧ twin W.order t < (W.order : Int) * W.elemA)) := by
    intro p hp e he t h0 h1
    obtain ⟨q, e', r, hr⟩ := W.cross hk ho p hp e he
    obtain ⟨a1, a2, ⟨a3, a4⟩, a5, a6, a6', a7, -, ⟨f, a9, a10⟩, -⟩ := hr t h0 h1
    obtain ⟨-, -, -, -, -, -, -, b8, -, ⟨f', b9, b10⟩⟩ := hr (r t) a3 a4
    rw [a5] at b8
    refine ⟨q, e', r t, a1, a2, ⟨a3, a4⟩, a7, b8, ?_, ?_, ?_⟩
    · unfold World.back
      rw [(W.edge_steps ho e he p t).1]
      simp only
      rw [a9]
      simp only [a10]
      cases alongAlpha e <;> cases alongAlpha e' <;> rfl
    · unfold World.back
      rw [(W.edge_steps ho e' a2 q (r t)).1]
      simp only
      rw [b9]
      simp only [b10]
      cases alongAlpha e <;> cases alongAlpha e' <;> rfl
    · rcases a6' with h | h
      · rw [h]
      · rw [h, twin_mirror _ _ _ ho]
        omega
  have opEdge : ∀ p e t n, IsEdge e → W.see p (outside (W.order * W.elemA) e 0 t).1 (outside (W.order * W.elemA) e 0 t).2 =
      some n → W.op (alongAlpha e) (p, inside (W.order * W.elemA) e 0 t) = n := by
    intro p e t n he h
    unfold World.op
    rw [(W.edge_steps ho e he p t).1]
    simp only
    rw [h]
    rfl
  have diagEdge : ∀ p e t n, IsEdge e → W.see p (outside (W.order * W.elemA) e 0 (twin W.order t)).1
      (outside (W.order * W.elemA) e 0 (twin W.order t)).2 =
      some n → W.diag (p, inside (W.order * W.elemA) e 0 t) = n := by
    intro p e t n he h
    unfold World.diag
    have h2 := (W.edge_steps ho e he p t).2
    have h3 := congrArg Prod.fst h2
    have h4 := congrArg Prod.snd h2
    simp only at h3 h4
    simp only
    rw [h3, h4, h]
    rfl
  have stay : ∀ d p g h, (0 ≤ (W.shift d (p, g, h)).1 ∧ (W.shift d (p, g, h)).1 < W.order * W.elemA) →
      (0 ≤ (W.shift d (p, g, h)).2 ∧ (W.shift d (p, g, h)).2 < W.order * W.elemA) →
      W.op d (p, g, h) = (p, W.shift d (p, g, h)) ∧ W.back (p, g, h) d = d ∧
      W.see p (W.shift d (p, g, h)).1 (W.shift d (p, g, h)).2 = some (p, W.shift d (p, g, h)) := by
    intro d p g h hg hh
    have hsee := W.see_in hk p _ _ hg.1 hg.2 hh.1 hh.2
    refine ⟨?_, ?_, hsee⟩
    · unfold World.op
      simp only
      rw [hsee]
      rfl
    · unfold World.back
      simp only
      rw [rel_in _ p _ _ hg.1 hg.2 hh.1 hh.2]
      simp only
      cases d <;> rfl
  have ss : ∀ d (p g h : Int), W.shift d (p, W.shift d (p, g, h)) = (g, h) := by
    intro d p g h
    cases d <;> simp [World.shift, twin_twin _ _ ho]
  refine ⟨?_, ?_, ?_, ?_, ?_⟩
  · rintro d ⟨p, g, h⟩ hn
    rw [W.mem_nodes, ← hs] at hn
    obtain ⟨hp, ⟨g0, g1⟩, h0, h1⟩ := hn
    rcases W.leaves ho d p g h g0 g1 h0 h1 with ⟨a, b⟩ | ⟨e, t, he, rfl, t0, t1, hi⟩
    · rw [(stay d p g h a b).1]
      exact (stay d p g h a b).2.2
    · obtain ⟨q, e', s, s1, s2, s3, s4, -⟩ := step p (pan p hp) e he t t0 t1
      have : (p, g, h) = (p, inside (W.order * W.elemA) e 0 t) := congrArg (Prod.mk p) hi
      rw [this, opEdge p e t _ he s4, (W.edge_steps ho e he p t).1, s4]
  · rintro d ⟨p, g, h⟩ hn
    have hn0 := hn
    rw [W.mem_nodes, ← hs] at hn
    obtain ⟨hp, ⟨g0, g1⟩, h0, h1⟩ := hn
    rcases W.leaves ho d p g h g0 g1 h0 h1 with ⟨a, b⟩ | ⟨e, t, he, rfl, t0, t1, hi⟩
    · rw [(stay d p g h a b).1]
      have : (p, W.shift d (p, g, h)) = (p, (W.shift d (p, g, h)).1, (W.shift d (p, g, h)).2) := rfl
      rw [this, W.mem_nodes, ← hs]
      exact ⟨hp, a, b⟩
    · obtain ⟨q, e', s, s1, s2, s3, s4, -⟩ := step p (pan p hp) e he t t0 t1
      have : (p, g, h) = (p, inside (W.order * W.elemA) e 0 t) := congrArg (Prod.mk p) hi
      rw [this, opEdge p e t _ he s4]
      exact W.inside_on hk hs q s s1 e' s2 s3.1 s3.2
  · rintro d ⟨p, g, h⟩ hn
    rw [W.mem_nodes, ← hs] at hn
    obtain ⟨hp, ⟨g0, g1⟩, h0, h1⟩ := hn
    rcases W.leaves ho d p g h g0 g1 h0 h1 with ⟨a, b⟩ | ⟨e, t, he, rfl, t0, t1, hi⟩
    · rw [(stay d p g h a b).1, (stay d p g h a b).2.1]
      have e2 := ss d p g h
      have e3 := stay d p (W.shift d (p, g, h)).1 (W.shift d (p, g, h)).2 (by
        show 0 ≤ (W.shift d (p, W.shift d (p, g, h))).1 ∧ (W.shift d (p, W.shift d (p, g, h))).1 < _
        rw [e2]; exact ⟨g0, g1⟩) (by
        show 0 ≤ (W.shift d (p, W.shift d (p, g, h))).2 ∧ (W.shift d (p, W.shift d (p, g, h))).2 < _
        rw [e2]; exact ⟨h0, h1⟩)
      refine ⟨?_, e3.2.1⟩
      have e4 := e3.1
      show W.op d (p, W.shift d (p, g, h)) = _
      refine e4.trans ?_
      show (p, W.shift d (p, W.shift d (p, g, h))) = _
      rw [e2]
    · obtain ⟨q, e', s, s1, s2, s3, s4, s5, s6, s7, s8⟩ := step p (pan p hp) e he t t0 t1
      have : (p, g, h) = (p, inside (W.order * W.elemA) e 0 t) := congrArg (Prod.mk p) hi
      rw [this, opEdge p e t _ he s4, s6]
      exact ⟨opEdge q e' s _ s2 s5, s7⟩
  · rintro ⟨p, g, h⟩ hn ht
    rw [W.mem_nodes, ← hs] at hn
    obtain ⟨hp, ⟨g0, g1⟩, h0, h1⟩ := hn
    -- along an edge
    have edge : ∀ e t, IsEdge e → 0 ≤ t → t < (W.order : Int) * W.elemA → (g, h) = inside (W.order * W.elemA) e 0 t →
        W.diag (p, g, h) ∈ W.nodes ∧ ¬ W.Triple (W.diag (p, g, h)) ∧ W.diag (W.diag (p, g, h)) = (p, g, h) := by
      intro e t he t0 t1 hi
      have hpe : (p, g, h) = (p, inside (W.order * W.elemA) e 0 t) := congrArg (Prod.mk p) hi
      rw [hpe] at ht ⊢
      rw [W.triple_edge hk ho e he p t (pan p hp), not_not] at ht
      obtain ⟨q, e', r, hr⟩ := W.cross hk ho p (pan p hp) e he
      obtain ⟨a1, a2, ⟨a3, a4⟩, -, a6, -⟩ := hr t t0 t1
      obtain ⟨-, -, ⟨b3, b4⟩, b5, b6, -, b7, -⟩ := hr (twin W.order t) ht.1 ht.2
      obtain ⟨-, -, -, c5, -, -, -, c8, -⟩ := hr (r t) a3 a4
      rw [diagEdge p e t _ he b7]
      refine ⟨W.inside_on hk hs q _ a1 e' a2 b3 b4, ?_, ?_⟩
      · rw [W.triple_edge hk ho e' a2 q _ a1, not_not, a6, twin_twin _ _ ho]
        exact ⟨a3, a4⟩
      · have e1 : twin (W.order : Int) (r (twin W.order t)) = r t := by rw [a6, twin_twin _ _ ho]
        refine diagEdge q e' _ _ a2 ?_
        rw [e1]
        rw [c8, (hr t t0 t1).2.2.2.1]
    rcases W.leaves ho true p g h g0 g1 h0 h1 with ⟨a, -⟩ | ⟨e, t, he, -, t0, t1, hi⟩
    · rcases W.leaves ho false p g h g0 g1 h0 h1 with ⟨-, b⟩ | ⟨e, t, he, -, t0, t1, hi⟩
      · simp only [World.shift, if_true, Bool.false_eq_true, if_false] at a b
        have d1 : ∀ g h, (0 ≤ twin W.order g ∧ twin W.order g < (W.order : Int) * W.elemA) →
            (0 ≤ twin W.order h ∧ twin W.order h < (W.order : Int) * W.elemA) →
            W.diag (p, g, h) = (p, twin W.order g, twin W.order h) ∧ ¬ W.Triple (p, g, h) := by
          intro g h a b
          have := W.see_in hk p _ _ a.1 a.2 b.1 b.2
          constructor
          · unfold World.diag
            simp only
            rw [this]
            rfl
          · unfold World.Triple
            simp only
            rw [this]
            simp
        rw [(d1 g h a b).1]
        have d2 := d1 (twin W.order g) (twin W.order h) (by rw [twin_twin _ _ ho]; exact ⟨g0, g1⟩)
          (by rw [twin_twin _ _ ho]; exact ⟨h0, h1⟩)
        refine ⟨?_, d2.2, ?_⟩
        · rw [W.mem_nodes, ← hs]
          exact ⟨hp, a, b⟩
        · rw [d2.1, twin_twin _ _ ho, twin_twin _ _ ho]
      · exact edge e t he t0 t1 hi
    · exact edge e t he t0 t1 hi
  · rintro d ⟨p, g, h⟩ hn
    rw [W.mem_nodes, ← hs] at hn
    obtain ⟨hp, ⟨g0, g1⟩, h0, h1⟩ := hn
    rcases W.leaves ho d p g h g0 g1 h0 h1 with ⟨a, b⟩ | ⟨e, t, he, rfl, t0, t1, hi⟩
    · rw [(stay d p g h a b).1]
      have nt : ∀ g h, ((0 ≤ twin W.order g ∧ twin W.order g < (W.order : Int) * W.elemA) ∨
          (0 ≤ twin W.order h ∧ twin W.order h < (W.order : Int) * W.elemA)) → 0 ≤ g → g < (W.order : Int) * W.elemA →
          0 ≤ h → h < (W.order : Int) * W.elemA → ¬ W.Triple (p, g, h) := by
        intro g h hor g0 g1 h0 h1
        by_cases hg : 0 ≤ twin W.order g ∧ twin W.order g < (W.order : Int) * W.elemA
        · rcases W.leaves ho false p g h g0 g1 h0 h1 with ⟨-, b⟩ | ⟨e, t, he, ha, t0, t1, hi⟩
          · simp only [World.shift, Bool.false_eq_true, if_false] at b
            unfold World.Triple
            simp only
            rw [W.see_in hk p _ _ hg.1 hg.2 b.1 b.2]
            simp
          · have hpe : (p, g, h) = (p, inside (W.order * W.elemA) e 0 t) := congrArg (Prod.mk p) hi
            rw [hpe, W.triple_edge hk ho e he p t (pan p hp), not_not]
            have : t = g := by
              rcases he with rfl | rfl | rfl | rfl <;> simp [alongAlpha, inside] at ha hi <;> omega
            rw [this]; exact hg
        · rcases hor with hor | hor
          · exact absurd hor hg
          rcases W.leaves ho true p g h g0 g1 h0 h1 with ⟨a, -⟩ | ⟨e, t, he, ha, t0, t1, hi⟩
          · simp only [World.shift, if_true] at a
            exact absurd a hg
          · have hpe : (p, g, h) = (p, inside (W.order * W.elemA) e 0 t) := congrArg (Prod.mk p) hi
            rw [hpe, W.triple_edge hk ho e he p t (pan p hp), not_not]
            have : t = h := by
              rcases he with rfl | rfl | rfl | rfl <;> simp [alongAlpha, inside] at ha hi <;> omega
            rw [this]; exact hor
      cases d
      · simp only [World.shift, Bool.false_eq_true, if_false] at a b ⊢
        refine iff_of_false (nt _ _ (.inr ?_) g0 g1 b.1 b.2) (nt _ _ (.inr b) g0 g1 h0 h1)
        rw [twin_twin _ _ ho]; exact ⟨h0, h1⟩
      · simp only [World.shift, if_true] at a b ⊢
        refine iff_of_false (nt _ _ (.inl ?_) a.1 a.2 h0 h1) (nt _ _ (.inl a) g0 g1 h0 h1)
        rw [twin_twin _ _ ho]; exact ⟨g0, g1⟩
    · obtain ⟨q, e', s, s1, s2, s3, s4, s5, s6, s7, s8⟩ := step p (pan p hp) e he t t0 t1
      have : (p, g, h) = (p, inside (W.order * W.elemA) e 0 t) := congrArg (Prod.mk p) hi
      rw [this, opEdge p e t _ he s4, W.triple_edge hk ho e' s2 q s s1,
        W.triple_edge hk ho e he p t (pan p hp), s8]

end Verif.Whole
