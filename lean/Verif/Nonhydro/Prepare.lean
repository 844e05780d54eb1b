import Verif.Nonhydro.Lemmas

/-!
# What the interpolations before the step do
-/

namespace Verif.Nonhydro

open Verif.Horiz

section

variable (M : Nat → Nat → ℝ) (src dst : Var) (n m : Nat)

theorem mapColumn_pass (iA iB : Nat) (u : Data) :
    (∀ x, (∀ k, k < m → x ≠ ⟨dst, iA, iB, k⟩) → mapColumn M src dst n m iA iB u x = u x) ∧
      ∀ k, k < m → mapColumn M src dst n m iA iB u ⟨dst, iA, iB, k⟩ =
        ∑ l ∈ Finset.range n, M k l * u ⟨src, iA, iB, l⟩ := by
  have h := loop_pass m (fun k s => put s ⟨dst, iA, iB, k⟩ (row n M k (fun l => u ⟨src, iA, iB, l⟩)))
    (fun k x => x = ⟨dst, iA, iB, k⟩) (fun k _ => touches_put _ _ (fun _ _ _ => rfl)) (by
      rintro k k' - - x rfl e
      injection e) u
  refine ⟨fun x hx => h.1 x hx, fun k hk => ?_⟩
  unfold mapColumn
  rw [h.2 k hk _ rfl, row_sum]
  simp [put]

theorem mapColumn_touches (iA iB : Nat) : Touches (mapColumn M src dst n m iA iB) (Col iA iB) := by
  constructor
  · intro u x hx
    exact (mapColumn_pass M src dst n m iA iB u).1 x (fun k _ e => hx (by rw [e]; exact ⟨rfl, rfl⟩))
  · intro u u' he x hx
    by_cases h : ∃ k, k < m ∧ x = ⟨dst, iA, iB, k⟩
    · obtain ⟨k, hk, rfl⟩ := h
      rw [(mapColumn_pass M src dst n m iA iB u).2 k hk, (mapColumn_pass M src dst n m iA iB u').2 k hk]
      exact Finset.sum_congr rfl (fun l _ => by rw [he _ ⟨rfl, rfl⟩])
    · have h' : ∀ k, k < m → x ≠ ⟨dst, iA, iB, k⟩ := fun k hk e => h ⟨k, hk, e⟩
      rw [(mapColumn_pass M src dst n m iA iB u).1 x h', (mapColumn_pass M src dst n m iA iB u').1 x h']
      exact he x hx

theorem mapColumns_other (S : Shape) (u : Data) (x : Cell) (hx : x.v ≠ dst) :
    mapColumns S M src dst n m u x = u x := by
  have h1 : ∀ (iA iB : Nat) (u : Data), mapColumn M src dst n m iA iB u x = u x := fun iA iB u =>
    (mapColumn_pass M src dst n m iA iB u).1 x (fun k _ e => hx (by rw [e]))
  have h2 : ∀ (iA p : Nat) (u : Data), loop p (fun j u => mapColumn M src dst n m iA (S.halo + j) u) u x = u x := by
    intro iA p u
    induction p with
    | zero => rfl
    | succ p ih => rw [loop_succ, h1, ih]
  have h3 : ∀ (p : Nat) (u : Data), loop p (fun i u => loop (S.elemB * S.order) (fun j u =>
      mapColumn M src dst n m (S.halo + i) (S.halo + j) u) u) u x = u x := by
    intro p u
    induction p with
    | zero => rfl
    | succ p ih => rw [loop_succ, h2, ih]
  exact h3 _ u

theorem inside (S : Shape) (e a i : Nat) (ha : a < e) (hi : i < S.order) :
    ∃ t, t < e * S.order ∧ S.at a i = S.halo + t := by
  refine ⟨a * S.order + i, ?_, by unfold Shape.at; omega⟩
  have := Nat.mul_le_mul_right S.order ha
  rw [Nat.succ_mul] at this
  omega

theorem mapColumns_at (S : Shape) (u : Data) (a b i j k : Nat) (ha : a < S.elemA) (hb : b < S.elemB) (hi : i < S.order)
    (hj : j < S.order) (hk : k < m) :
    mapColumns S M src dst n m u ⟨dst, S.at a i, S.at b j, k⟩ =
      ∑ l ∈ Finset.range n, M k l * u ⟨src, S.at a i, S.at b j, l⟩ := by
  obtain ⟨p, hp, e1⟩ := inside S S.elemA a i ha hi
  obtain ⟨q, hq, e2⟩ := inside S S.elemB b j hb hj
  rw [e1, e2]
  have h1 : ∀ i, i < S.elemA * S.order → Touches (loop (S.elemB * S.order) (fun j u =>
      mapColumn M src dst n m (S.halo + i) (S.halo + j) u)) (fun x => x.iA = S.halo + i) :=
    fun i _ => iterate _ _ (fun j _ => grow (mapColumn_touches M src dst n m _ _) (fun _ hx => hx.1))
  unfold mapColumns
  rw [(loop_pass _ (fun i u => loop (S.elemB * S.order) (fun j u =>
      mapColumn M src dst n m (S.halo + i) (S.halo + j) u) u) (fun i x => x.iA = S.halo + i) h1
    (fun i i' _ _ x e e' => by omega) u).2 p hp _ rfl,
    (loop_pass _ (fun j u => mapColumn M src dst n m (S.halo + p) (S.halo + j) u)
      (fun j x => Col (S.halo + p) (S.halo + j) x) (fun j _ => mapColumn_touches M src dst n m _ _)
      (fun j j' _ _ x e e' => by have := e.2; have := e'.2; omega) u).2 q hq _ ⟨rfl, rfl⟩]
  exact (mapColumn_pass M src dst n m _ _ u).2 k hk

end

theorem prepare_same (A : Air) (u : Data) (x : Cell) (h0 : x.v ≠ edge 0) (h1 : x.v ≠ edge 1)
    (h3 : x.v = .state 3 → A.wOnEdge = false) (h2 : x.v = .state 2 → A.pOnEdge = false) : prepare A u x = u x := by
  unfold prepare
  have e : ∀ u : Data, (if A.pOnEdge then mapColumns A.G.S A.toNode (edge 2) (.state 2) (A.G.S.levels + 1) A.G.S.levels u
      else u) x = u x := by
    intro u
    split
    · rename_i h
      exact mapColumns_other _ _ _ _ _ _ _ _ (fun e => by rw [h2 e] at h; exact absurd h (by decide))
    · rfl
  simp only [e]
  split
  · rename_i h
    rw [mapColumns_other _ _ _ _ _ _ _ _ h1, mapColumns_other _ _ _ _ _ _ _ _ h0,
      mapColumns_other _ _ _ _ _ _ _ _ (fun e => by rw [h3 e] at h; exact absurd h (by decide))]
  · rfl

section

variable (A : Air) (u : Data) (a b i j k : Nat) (ha : a < A.G.S.elemA) (hb : b < A.G.S.elemB) (hi : i < A.G.S.order)
  (hj : j < A.G.S.order)

include ha hb hi hj

theorem prepare_w (hw : A.wOnEdge = true) (hk : k < A.G.S.levels) :
    prepare A u ⟨.state 3, A.G.S.at a i, A.G.S.at b j, k⟩ =
      ∑ l ∈ Finset.range (A.G.S.levels + 1), A.toNode k l * u ⟨edge 3, A.G.S.at a i, A.G.S.at b j, l⟩ := by
  unfold prepare
  simp only [hw, if_true]
  have e : ∀ u : Data, (if A.pOnEdge then mapColumns A.G.S A.toNode (edge 2) (.state 2) (A.G.S.levels + 1) A.G.S.levels u
      else u) ⟨.state 3, A.G.S.at a i, A.G.S.at b j, k⟩ = u ⟨.state 3, A.G.S.at a i, A.G.S.at b j, k⟩ := by
    intro u
    split
    · exact mapColumns_other _ _ _ _ _ _ _ _ (by simp)
    · rfl
  rw [e, mapColumns_other _ _ _ _ _ _ _ _ (by simp [edge]), mapColumns_other _ _ _ _ _ _ _ _ (by simp [edge]),
    mapColumns_at _ _ _ _ _ _ _ a b i j k ha hb hi hj hk]

theorem prepare_p (hp : A.pOnEdge = true) (hk : k < A.G.S.levels) :
    prepare A u ⟨.state 2, A.G.S.at a i, A.G.S.at b j, k⟩ =
      ∑ l ∈ Finset.range (A.G.S.levels + 1), A.toNode k l * u ⟨edge 2, A.G.S.at a i, A.G.S.at b j, l⟩ := by
  unfold prepare
  simp only [hp, if_true]
  rw [mapColumns_at _ _ _ _ _ _ _ a b i j k ha hb hi hj hk]
  refine Finset.sum_congr rfl (fun l _ => ?_)
  congr 1
  split
  · rw [mapColumns_other _ _ _ _ _ _ _ _ (by simp [edge]), mapColumns_other _ _ _ _ _ _ _ _ (by simp [edge]),
      mapColumns_other _ _ _ _ _ _ _ _ (by simp [edge])]
  · rfl

end

end Verif.Nonhydro
