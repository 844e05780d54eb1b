import Verif.Norms.Spec
import Verif.Init.Props
import Verif.Checksum.Props

/-!
# What the steps of the computation leave
-/

namespace Verif.Norms

open Verif.Init
open Verif.Checksum (total Owned)

theorem forall₂_comp {α β γ : Type} {R : α → β → Prop} {S : β → γ → Prop} :
    ∀ {a : List α} {b : List β} {c : List γ}, List.Forall₂ R a b → List.Forall₂ S b c →
      List.Forall₂ (fun x z => ∃ y, R x y ∧ S y z) a c
  | _, _, _, .nil, .nil => .nil
  | _, _, _, .cons h t, .cons h' t' => .cons ⟨_, h, h'⟩ (forall₂_comp t t')

theorem mapM_map {α β : Type} (f : α → Except Fault β) (g : α → β) : ∀ (l : List α), (∀ a ∈ l, f a = .ok (g a)) →
    l.mapM f = .ok (l.map g)
  | [], _ => rfl
  | a :: l, h => by
    rw [List.mapM_cons, h a (by simp), mapM_map f g l (fun b hb => h b (by simp [hb]))]
    rfl

theorem forall₂_map {α β : Type} {g : α → β} : ∀ {l : List α} {l' : List β},
    List.Forall₂ (fun a b => b = g a) l l' → l' = l.map g
  | _, _, .nil => rfl
  | _, _, .cons h t => by rw [h, forall₂_map t]; rfl

/-- The arrays at the end, from those that hold the exact state. -/
noncomputable def after (A : Arrays) : Arrays := { A with
  node := fun m => if m = 1 then (fun c i j k => A.node 1 c i j k - A.node 0 c i j k)
    else if m = 2 then (fun c i j k => A.node 1 c i j k + A.refNode c i j k) else A.node m
  edge := fun m => if m = 1 then (fun c i j k => A.edge 1 c i j k - A.edge 0 c i j k)
    else if m = 2 then A.edge 1 else A.edge m }

/-- The steps for one patch. -/
noncomputable def one (K : Kind) (T : Test) (t : Tile) : Except Fault Tile := do
  let t ← evaluateTile K T 1 t
  let t ← copyState 1 2 t
  let t ← addReference 2 t
  combineState [-1, 1] 1 t

theorem tail_eq (t : Tile) (h : 3 ≤ t.site.instances) :
    (do let t ← copyState 1 2 t
        let t ← addReference 2 t
        combineState [-1, 1] 1 t) = .ok (t.withArrays (after t.arrays)) := by
  have e1 : copyState 1 2 t = .ok (t.withArrays { t.arrays with
      node := setAt t.arrays.node 2 (t.arrays.node 1), edge := setAt t.arrays.edge 2 (t.arrays.edge 1) }) := by
    unfold copyState
    rw [if_neg (by omega), if_neg (by omega)]
  rw [e1]
  dsimp only [bind, Except.bind]
  unfold addReference Tile.withArrays
  dsimp only
  rw [if_neg (by omega)]
  dsimp only
  unfold combineState Tile.withArrays
  simp only [List.getElem?_cons_succ, List.getElem?_cons_zero]
  rw [if_neg (by omega), if_neg (by simp; omega), if_neg one_ne_zero]
  simp only [combineTerms, combineTerm]
  have z1 : ¬ (0 : Nat) = 1 := by omega
  have z2 : ¬ (-1 : ℝ) = 0 := by norm_num
  simp only [if_neg z1, if_neg z2, Nat.zero_add, if_true]
  congr 2
  unfold after
  congr 1
  · funext m c i j k
    simp only [setAt]
    by_cases h1 : m = 1
    · subst h1; simp [addProduct, scaled]; ring
    · by_cases h2 : m = 2
      · subst h2; simp [addProduct]
      · simp [h1, h2]
  · funext m c i j k
    simp only [setAt]
    by_cases h1 : m = 1
    · subst h1; simp [addProduct, scaled]; ring
    · by_cases h2 : m = 2
      · subst h2; simp [addProduct]
      · simp [h1, h2]

theorem one_ok (K : Kind) (T : Test) (t t' : Tile) :
    one K T t = .ok t' ↔ 3 ≤ t.site.instances ∧ ∃ A, evaluate K t.site T T.ztop T.hasReference 1 t.arrays = .ok A ∧
      t' = t.withArrays (after A) := by
  constructor
  · intro h
    unfold one at h
    obtain ⟨t1, h1, h⟩ := bind_ok h
    unfold evaluateTile at h1
    obtain ⟨A, hA, h1⟩ := bind_ok h1
    simp only [pure, Except.pure, Except.ok.injEq] at h1
    subst h1
    by_cases hi : 3 ≤ t.site.instances
    · rw [tail_eq (t.withArrays A) hi] at h
      simp only [Except.ok.injEq] at h
      exact ⟨hi, A, hA, h.symm⟩
    · exfalso
      obtain ⟨t2, h2, h⟩ := bind_ok h
      unfold copyState at h2
      split_ifs at h2 with ha hb
      exact hb (by show 2 ≥ t.site.instances; omega)
  · rintro ⟨hi, A, hA, rfl⟩
    unfold one evaluateTile
    rw [hA]
    exact tail_eq (t.withArrays A) hi

theorem prepare_ok (K : Kind) (T : Test) (tiles l : List Tile) (h : prepare K T tiles = .ok l) :
    List.Forall₂ (fun t t' => one K T t = .ok t') tiles l := by
  unfold prepare at h
  obtain ⟨l1, h1, h⟩ := bind_ok h
  obtain ⟨l2, h2, h⟩ := bind_ok h
  obtain ⟨l3, h3, h⟩ := bind_ok h
  have := forall₂_comp (mapM_forall _ _ _ h1) (forall₂_comp (mapM_forall _ _ _ h2)
    (forall₂_comp (mapM_forall _ _ _ h3) (mapM_forall _ _ _ h)))
  refine this.imp ?_
  rintro t t' ⟨a, ha, b, hb, c, hc, hd⟩
  unfold one
  rw [ha]
  dsimp only [bind, Except.bind]
  rw [hb]
  dsimp only
  rw [hc]
  exact hd

theorem prepare_map (K : Kind) (T : Test) (tiles : List Tile) (E : Tile → Arrays) (hE : Exact K T tiles E)
    (h3 : ∀ t ∈ tiles, 3 ≤ t.site.instances) :
    prepare K T tiles = .ok (tiles.map (fun t => t.withArrays (after (E t)))) := by
  have e1 : tiles.mapM (evaluateTile K T 1) = .ok (tiles.map (fun t => t.withArrays (E t))) := by
    apply mapM_map
    intro t ht
    unfold evaluateTile
    rw [hE t ht]; rfl
  have hs : ∀ t ∈ tiles, ∃ a b, copyState 1 2 (t.withArrays (E t)) = .ok a ∧ addReference 2 a = .ok b ∧
      combineState [-1, 1] 1 b = .ok (t.withArrays (after (E t))) := by
    intro t ht
    have := tail_eq (t.withArrays (E t)) (h3 t ht)
    obtain ⟨a, ha, h⟩ := bind_ok this
    obtain ⟨b, hb, h⟩ := bind_ok h
    exact ⟨a, b, ha, hb, h⟩
  choose! fa fb ha hb hc using hs
  unfold prepare
  rw [e1]
  show (List.mapM (copyState 1 2) (tiles.map _) >>= _) = _
  have e2 : (tiles.map (fun t => t.withArrays (E t))).mapM (copyState 1 2) = .ok (tiles.map fa) := by
    rw [List.mapM_map]
    exact mapM_map _ _ _ (fun t ht => ha t ht)
  rw [e2]
  show (List.mapM (addReference 2) (tiles.map fa) >>= _) = _
  have e3 : (tiles.map fa).mapM (addReference 2) = .ok (tiles.map fb) := by
    rw [List.mapM_map]
    exact mapM_map _ _ _ (fun t ht => hb t ht)
  rw [e3]
  show List.mapM (combineState [-1, 1] 1) (tiles.map fb) = _
  rw [List.mapM_map]
  exact mapM_map _ _ _ (fun t ht => hc t ht)

/-- The exact state exists when the computation succeeds, and then the patches are known at the end. -/
theorem prepared (K : Kind) (T : Test) (procs procs' : List (List Tile)) (h : procs.mapM (prepare K T) = .ok procs') :
    (∀ t ∈ procs.flatten, 3 ≤ t.site.instances ∧
      ∃ A, evaluate K t.site T T.ztop T.hasReference 1 t.arrays = .ok A) ∧
    ∀ E, Exact K T procs.flatten E → procs' = procs.map (List.map (fun t => t.withArrays (after (E t)))) := by
  have hf := mapM_forall _ _ _ h
  clear h
  induction hf with
  | nil => exact ⟨by simp, fun _ _ => rfl⟩
  | @cons l l' ls ls' hl _ ih =>
    replace hl := prepare_ok K T l l' hl
    have key : (∀ t ∈ l, 3 ≤ t.site.instances ∧
        ∃ A, evaluate K t.site T T.ztop T.hasReference 1 t.arrays = .ok A) ∧
        ∀ E, Exact K T l E → l' = l.map (fun t => t.withArrays (after (E t))) := by
      clear ih
      induction hl with
      | nil => exact ⟨by simp, fun _ _ => rfl⟩
      | @cons t t' l l' ht _ ih =>
        obtain ⟨h3, A, hA, rfl⟩ := (one_ok K T t t').1 ht
        refine ⟨?_, fun E hE => ?_⟩
        · intro x hx
          rcases List.mem_cons.1 hx with rfl | hx
          · exact ⟨h3, A, hA⟩
          · exact ih.1 x hx
        · have e := hE t (by simp)
          rw [hA, Except.ok.injEq] at e
          rw [ih.2 E (fun x hx => hE x (by simp [hx])), e]
          rfl
    refine ⟨?_, fun E hE => ?_⟩
    · intro t ht
      rw [List.flatten_cons, List.mem_append] at ht
      exact ht.elim (key.1 t) (ih.1 t)
    · rw [key.2 E (fun t ht => hE t (by simp [ht])), ih.2 E (fun t ht => hE t (by
        rw [List.flatten_cons, List.mem_append]; exact Or.inr ht))]
      rfl

theorem exact_exists (K : Kind) (T : Test) (tiles : List Tile)
    (h : ∀ t ∈ tiles, ∃ A, evaluate K t.site T T.ztop T.hasReference 1 t.arrays = .ok A) :
    ∃ E, Exact K T tiles E := by
  have : ∀ t : Tile, ∃ A, t ∈ tiles → evaluate K t.site T T.ztop T.hasReference 1 t.arrays = .ok A := by
    intro t
    by_cases ht : t ∈ tiles
    · obtain ⟨A, hA⟩ := h t ht
      exact ⟨A, fun _ => hA⟩
    · exact ⟨t.arrays, fun h => absurd h ht⟩
  choose E hE using this
  exact ⟨E, fun t ht => hE t ht⟩

/-- A successful checksum is a run of `Verif.Checksum`. -/
theorem checksum_run (g : Checksum.Setup) (reduce : List (Nat → ℝ) → Checksum.Tree (Nat → ℝ)) (n : Nat)
    (kind : Checksum.Kind) (procs : List (List Tile)) (hp : procs ≠ []) (hr : ∀ l, l ≠ [] → (reduce l).leaves.Perm l)
    (r : Nat → ℝ) (h : checksum g reduce n kind procs = .ok r) :
    ∃ t, r = Checksum.rootChecksum kind t ∧
      Nonempty (Checksum.Run g .state kind (procs.flatten.map (Tile.slot n)) t) := by
  unfold checksum at h
  obtain ⟨locals, hl, h'⟩ := bind_ok h
  clear h
  simp only [pure, Except.pure, Except.ok.injEq] at h'
  have hf := mapM_forall _ _ _ hl
  refine ⟨reduce locals, h'.symm, ⟨⟨procs.map (List.map (Tile.slot n)), locals, ?_, ?_, ?_⟩⟩⟩
  · rw [List.map_flatten]
  · clear hl h' hp
    induction hf with
    | nil => rfl
    | @cons a b l l' hab _ ih =>
      rw [List.map_cons, List.map_cons, List.map_cons, ih]
      congr 1
      cases hc : Checksum.localChecksum g .state kind (a.map (Tile.slot n)) with
      | none => rw [hc] at hab; simp at hab
      | some x => rw [hc] at hab; simp only [Except.ok.injEq] at hab; rw [hab]
  · apply hr
    rintro rfl
    cases hf
    exact hp rfl

theorem slot_values (g : Checksum.Setup) (c n : Nat) (t : Tile) (i j k : Nat) :
    Checksum.values g .state (t.slot n) c i j k = value g c n t.arrays i j k := by
  simp only [Checksum.values, value, Tile.slot]
  split_ifs <;> rfl

theorem slot_areas (g : Checksum.Setup) (c n : Nat) (t : Tile) (i j k : Nat) :
    Checksum.areas g .state (t.slot n) c i j k = area g c t i j k := by
  simp only [Checksum.areas, area, Tile.slot]
  split_ifs <;> rfl

theorem checksum_l1 (g : Checksum.Setup) (reduce : List (Nat → ℝ) → Checksum.Tree (Nat → ℝ)) (n : Nat)
    (procs : List (List Tile)) (hp : procs ≠ []) (hr : ∀ l, l ≠ [] → (reduce l).leaves.Perm l)
    (r : Nat → ℝ) (h : checksum g reduce n .l1 procs = .ok r) (c : Nat) (hc : c < g.components) :
    r c = normL1 g c procs.flatten (fun t => value g c n t.arrays) := by
  obtain ⟨t, rfl, ⟨R⟩⟩ := checksum_run g reduce n .l1 procs hp hr r h
  rw [Checksum.C59_l1 g .state _ t R c hc, List.map_map]
  unfold normL1 integral
  congr 1
  apply List.map_congr_left
  intro t _
  simp only [Function.comp_def, slot_values, slot_areas]
  rfl

theorem checksum_l2 (g : Checksum.Setup) (reduce : List (Nat → ℝ) → Checksum.Tree (Nat → ℝ)) (n : Nat)
    (procs : List (List Tile)) (hp : procs ≠ []) (hr : ∀ l, l ≠ [] → (reduce l).leaves.Perm l)
    (r : Nat → ℝ) (h : checksum g reduce n .l2 procs = .ok r) (c : Nat) (hc : c < g.components) :
    r c = normL2 g c procs.flatten (fun t => value g c n t.arrays) := by
  obtain ⟨t, rfl, ⟨R⟩⟩ := checksum_run g reduce n .l2 procs hp hr r h
  rw [Checksum.C59_l2 g .state _ t R c hc, List.map_map]
  unfold normL2 integral
  congr 2
  apply List.map_congr_left
  intro t _
  simp only [Function.comp_def, slot_values, slot_areas]
  rfl

theorem checksum_linf (g : Checksum.Setup) (reduce : List (Nat → ℝ) → Checksum.Tree (Nat → ℝ)) (n : Nat)
    (procs : List (List Tile)) (hp : procs ≠ []) (hr : ∀ l, l ≠ [] → (reduce l).leaves.Perm l)
    (r : Nat → ℝ) (h : checksum g reduce n .linf procs = .ok r) (c : Nat) (hc : c < g.components) :
    IsMax g c procs.flatten (fun t => value g c n t.arrays) (r c) := by
  obtain ⟨t, rfl, ⟨R⟩⟩ := checksum_run g reduce n .linf procs hp hr r h
  obtain ⟨h1, h2, h3⟩ := Checksum.C59_linf g .state _ t R c hc
  refine ⟨h1, ?_, ?_⟩
  · intro t ht i j k ho
    have := h2 (t.slot n) (List.mem_map_of_mem ht) i j k ho
    rwa [slot_values] at this
  · rcases h3 with h3 | ⟨P, hP, i, j, k, ho, e⟩
    · exact Or.inl h3
    · obtain ⟨t, ht, rfl⟩ := List.mem_map.1 hP
      refine Or.inr ⟨t, ht, i, j, k, ho, ?_⟩
      rw [e, slot_values]

theorem total_congr {aB aE bB bE n : Nat} {q q' : Nat → Nat → Nat → ℝ}
    (h : ∀ i j k, Owned aB aE bB bE n i j k → q i j k = q' i j k) : total aB aE bB bE n q = total aB aE bB bE n q' := by
  unfold total
  refine Finset.sum_congr rfl fun i hi => Finset.sum_congr rfl fun j hj => Finset.sum_congr rfl fun k hk => ?_
  rw [Finset.mem_Ico] at hi hj
  rw [Finset.mem_range] at hk
  exact h i j k ⟨hi.1, hi.2, hj.1, hj.2, hk⟩

theorem integral_congr {g : Checksum.Setup} {c : Nat} {tiles : List Tile} {q q' : Tile → Nat → Nat → Nat → ℝ}
    (h : ∀ t ∈ tiles, ∀ i j k, Own g c t i j k → q t i j k = q' t i j k) :
    integral g c tiles q = integral g c tiles q' := by
  unfold integral
  congr 1
  apply List.map_congr_left
  intro t ht
  exact total_congr (fun i j k ho => by rw [h t ht i j k ho])

theorem normL1_congr {g : Checksum.Setup} {c : Nat} {tiles : List Tile} {q q' : Tile → Nat → Nat → Nat → ℝ}
    (h : ∀ t ∈ tiles, ∀ i j k, Own g c t i j k → q t i j k = q' t i j k) :
    normL1 g c tiles q = normL1 g c tiles q' :=
  integral_congr (fun t ht i j k ho => by rw [h t ht i j k ho])

theorem normL2_congr {g : Checksum.Setup} {c : Nat} {tiles : List Tile} {q q' : Tile → Nat → Nat → Nat → ℝ}
    (h : ∀ t ∈ tiles, ∀ i j k, Own g c t i j k → q t i j k = q' t i j k) :
    normL2 g c tiles q = normL2 g c tiles q' := by
  unfold normL2
  rw [integral_congr (fun t ht i j k ho => by rw [h t ht i j k ho])]

theorem isMax_congr {g : Checksum.Setup} {c : Nat} {tiles : List Tile} {q q' : Tile → Nat → Nat → Nat → ℝ} {r : ℝ}
    (h : ∀ t ∈ tiles, ∀ i j k, Own g c t i j k → q t i j k = q' t i j k) (hq : IsMax g c tiles q r) :
    IsMax g c tiles q' r := by
  obtain ⟨h1, h2, h3⟩ := hq
  refine ⟨h1, fun t ht i j k ho => by rw [← h t ht i j k ho]; exact h2 t ht i j k ho, ?_⟩
  rcases h3 with h3 | ⟨t, ht, i, j, k, ho, e⟩
  · exact Or.inl h3
  · exact Or.inr ⟨t, ht, i, j, k, ho, by rw [e, h t ht i j k ho]⟩

theorem isMax_unique {g : Checksum.Setup} {c : Nat} {tiles : List Tile} {q : Tile → Nat → Nat → Nat → ℝ} {r s : ℝ}
    (hr : IsMax g c tiles q r) (hs : IsMax g c tiles q s) : r = s := by
  have half : ∀ {r s : ℝ}, IsMax g c tiles q r → IsMax g c tiles q s → r ≤ s := by
    intro r s hr hs
    rcases hr.2.2 with e | ⟨t, ht, i, j, k, ho, e⟩
    · rw [e]; exact hs.1
    · rw [e]; exact hs.2.1 t ht i j k ho
  exact le_antisymm (half hr hs) (half hs hr)

/-- The norms do not see which arrays a tile of the list carries. -/
theorem integral_map (g : Checksum.Setup) (c : Nat) (tiles : List Tile) (F : Tile → Arrays)
    (q : Tile → Nat → Nat → Nat → ℝ) :
    integral g c (tiles.map (fun t => t.withArrays (F t))) q = integral g c tiles (fun t => q (t.withArrays (F t))) := by
  unfold integral
  rw [List.map_map]
  rfl

theorem isMax_map (g : Checksum.Setup) (c : Nat) (tiles : List Tile) (F : Tile → Arrays)
    (q : Tile → Nat → Nat → Nat → ℝ) (r : ℝ) (h : IsMax g c (tiles.map (fun t => t.withArrays (F t))) q r) :
    IsMax g c tiles (fun t => q (t.withArrays (F t))) r := by
  obtain ⟨h1, h2, h3⟩ := h
  refine ⟨h1, fun t ht i j k ho => h2 _ (List.mem_map_of_mem ht) i j k ho, ?_⟩
  rcases h3 with h3 | ⟨t, ht, i, j, k, ho, e⟩
  · exact Or.inl h3
  · obtain ⟨t', ht', rfl⟩ := List.mem_map.1 ht
    exact Or.inr ⟨t', ht', i, j, k, ho, e⟩

end Verif.Norms
