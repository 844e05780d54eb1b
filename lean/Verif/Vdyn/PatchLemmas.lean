/-
Lemmas about the implicit step of a patch: which places are stepped and copied, and what the loops compute.
-/
import Verif.Vdyn.TracerProps
import Verif.Vdyn.PatchSpec

namespace Verif.Vdyn

open Verif.Column Verif.Interp Finset

/-! ### Loops -/

section
variable {solve : BandSolver} {S : Setup} {F : Fixed} {count : Nat}

/-- The loop over columns, if what a column does not depend on memory. -/
theorem stepColumns_spec (hist : ∀ M M' x I U, stepColumn solve S F count M x I U = stepColumn solve S F count M' x I U) (same : Bool)
    (init : Columns) (leave : Place → Columns → Memory → Memory) (M0 : Memory) (l : List Place) (hl : l.Nodup) (M : Memory) (P : Columns) :
    (∀ P', stepColumns solve S F count same init leave l M P = .ok P' →
      (∀ x ∈ l, stepColumn solve S F count M0 x (if same then P x else init x) (P x) = .ok (P' x)) ∧ ∀ x ∉ l, P' x = P x) ∧
    ((∀ x ∈ l, ∃ V, stepColumn solve S F count M0 x (if same then P x else init x) (P x) = .ok V) →
      ∃ P', stepColumns solve S F count same init leave l M P = .ok P') := by
  induction l generalizing M P with
  | nil =>
    refine ⟨fun P' h => ?_, fun _ => ⟨P, rfl⟩⟩
    obtain rfl := PatchRes.ok.inj h
    simp
  | cons x l ih =>
    rw [List.nodup_cons] at hl
    unfold stepColumns
    constructor
    · intro P' h
      cases hx : stepColumn solve S F count M x (if same then P x else init x) (P x) with
      | exc => rw [hx] at h; simp at h
      | ub => rw [hx] at h; simp at h
      | ok V =>
        rw [hx] at h
        dsimp only at h
        obtain ⟨h1, h2⟩ := (ih hl.2 (leave x P M) (Function.update P x V)).1 P' h
        refine ⟨fun y hy => ?_, fun y hy => ?_⟩
        · rcases List.mem_cons.1 hy with rfl | hy
          · rw [h2 y hl.1, Function.update_self, ← hx]
            exact hist _ _ _ _ _
          · have hne : y ≠ x := fun h => hl.1 (h ▸ hy)
            have := h1 y hy
            rwa [Function.update_of_ne hne] at this
        · rw [List.mem_cons, not_or] at hy
          rw [h2 y hy.2, Function.update_of_ne hy.1]
    · intro h
      obtain ⟨V, hV⟩ := h x List.mem_cons_self
      rw [hist M M0, hV]
      dsimp only
      apply (ih hl.2 _ _).2
      intro y hy
      have hne : y ≠ x := fun h => hl.1 (h ▸ hy)
      rw [Function.update_of_ne hne]
      exact h y (List.mem_cons_of_mem _ hy)

theorem copy_twice (d s : State) : copyColumn S count (copyColumn S count d s) s = copyColumn S count d s := by
  unfold copyColumn
  congr 1
  all_goals
    funext c k
    dsimp only
    split_ifs <;> rfl

/-- Copies whose sources are not written. -/
theorem copyAll_spec (f : Place → Place) (l : List (Place × Place)) (hf : ∀ ds ∈ l, ds.2 = f ds.1) (hsrc : ∀ ds ∈ l, ∀ ds' ∈ l, ds.2 ≠ ds'.1)
    (P : Columns) : (∀ ds ∈ l, copyAll S count l P ds.1 = copyColumn S count (P ds.1) (P (f ds.1))) ∧
      ∀ x, (∀ ds ∈ l, ds.1 ≠ x) → copyAll S count l P x = P x := by
  induction l generalizing P with
  | nil => simp [copyAll]
  | cons a l ih =>
    obtain ⟨h1, h2⟩ := ih (fun ds h => hf ds (List.mem_cons_of_mem _ h))
      (fun ds h ds' h' => hsrc ds (List.mem_cons_of_mem _ h) ds' (List.mem_cons_of_mem _ h')) (Function.update P a.1 (copyColumn S count (P a.1) (P a.2)))
    have e : copyAll S count (a :: l) P = copyAll S count l (Function.update P a.1 (copyColumn S count (P a.1) (P a.2))) := rfl
    rw [e]
    constructor
    · intro ds hds
      by_cases hin : ∃ ds' ∈ l, ds'.1 = ds.1
      · obtain ⟨ds', h', heq⟩ := hin
        rw [← heq, h1 ds' h']
        have hs : f ds'.1 ≠ a.1 := by
          rw [← hf ds' (List.mem_cons_of_mem _ h')]
          exact hsrc ds' (List.mem_cons_of_mem _ h') a List.mem_cons_self
        rw [Function.update_of_ne hs]
        by_cases hd : ds'.1 = a.1
        · rw [hd, Function.update_self, hf a List.mem_cons_self, copy_twice]
        · rw [Function.update_of_ne hd]
      · have : ds = a := by
          rcases List.mem_cons.1 hds with h | h
          · exact h
          · exact absurd ⟨ds, h, rfl⟩ hin
        subst this
        rw [h2 ds.1 (fun ds' h' heq => hin ⟨ds', h', heq⟩), Function.update_self, hf ds List.mem_cons_self]
    · intro x hx
      rw [h2 x (fun ds h => hx ds (List.mem_cons_of_mem _ h)), Function.update_of_ne (Ne.symm (hx a List.mem_cons_self))]

end

/-! ### Places -/

/-- In one direction: the nodes that are stepped. -/
theorem stepped_one (b w p : Nat) (hp : 2 ≤ p) (hw : w % p = 0) (i : Nat) :
    (∃ a < w / p, ∃ j < (if a = w / p - 1 then p else p - 1), i = b + a * p + j) ↔ b ≤ i ∧ i < b + w ∧ standsFor b w p i = i := by
  have hwp : w / p * p = w := Nat.div_mul_cancel (Nat.dvd_of_mod_eq_zero hw)
  constructor
  · rintro ⟨a, ha, j, hj, rfl⟩
    have hle : a * p + p ≤ w := by
      have := Nat.mul_le_mul_right p (show a + 1 ≤ w / p by omega)
      rw [Nat.add_mul, one_mul] at this
      omega
    have hjp : j < p := by split_ifs at hj <;> omega
    refine ⟨by omega, by omega, ?_⟩
    unfold standsFor
    rw [if_neg]
    rintro ⟨h1, h2⟩
    rw [show b + a * p + j - b + 1 = (j + 1) + a * p by omega, Nat.add_mul_mod_self_right] at h1
    have hj1 : j + 1 = p := by
      by_contra hne
      rw [Nat.mod_eq_of_lt (by omega)] at h1
      omega
    have hlast : a = w / p - 1 := by
      by_contra hne
      rw [if_neg hne] at hj
      omega
    have : a * p + p = w := by
      have : (a + 1) * p = w := by rw [show a + 1 = w / p by omega, hwp]
      rw [Nat.add_mul, one_mul] at this
      exact this
    omega
  · rintro ⟨h1, h2, h3⟩
    have hd := Nat.div_add_mod (i - b) p
    have hm := Nat.mod_lt (i - b) (show 0 < p by omega)
    have ha : (i - b) / p < w / p := by
      rw [Nat.div_lt_iff_lt_mul (by omega), hwp]
      omega
    refine ⟨(i - b) / p, ha, (i - b) % p, ?_, by rw [mul_comm] at hd; omega⟩
    by_cases hlast : (i - b) / p = w / p - 1
    · rw [if_pos hlast]
      exact hm
    · rw [if_neg hlast]
      by_contra hcon
      unfold standsFor at h3
      rw [if_pos] at h3
      · omega
      · refine ⟨?_, ?_⟩
        · rw [show i - b + 1 = p * ((i - b) / p) + p by omega, Nat.add_mod_right, Nat.mul_mod_right]
        · have hle : ((i - b) / p + 2) * p ≤ w / p * p := Nat.mul_le_mul_right p (by
            generalize (i - b) / p = q at *
            generalize w / p = r at *
            omega)
          rw [hwp, Nat.add_mul, mul_comm] at hle
          omega

/-- In one direction: the nodes that are copied over. -/
theorem copied_one (b w p : Nat) (hp : 2 ≤ p) (hw : w % p = 0) (i : Nat) :
    (∃ a, 1 ≤ a ∧ a < 1 + (w / p - 1) ∧ i = b + a * p - 1) ↔ b ≤ i ∧ i < b + w ∧ standsFor b w p i ≠ i := by
  have hwp : w / p * p = w := Nat.div_mul_cancel (Nat.dvd_of_mod_eq_zero hw)
  constructor
  · rintro ⟨a, h1, h2, rfl⟩
    have hle : (a + 1) * p ≤ w / p * p := Nat.mul_le_mul_right p (by omega)
    have hge : 1 * p ≤ a * p := Nat.mul_le_mul_right p h1
    rw [Nat.add_mul, hwp] at hle
    refine ⟨by omega, by omega, ?_⟩
    unfold standsFor
    rw [if_pos]
    · omega
    · rw [show b + a * p - 1 - b + 1 = a * p by omega]
      exact ⟨Nat.mul_mod_left _ _, by omega⟩
  · rintro ⟨h1, h2, h3⟩
    unfold standsFor at h3
    have hc : (i - b + 1) % p = 0 ∧ i - b + 1 < w := by
      by_contra hc
      rw [if_neg hc] at h3
      exact h3 rfl
    have he : (i - b + 1) / p * p = i - b + 1 := Nat.div_mul_cancel (Nat.dvd_of_mod_eq_zero hc.1)
    refine ⟨(i - b + 1) / p, ?_, ?_, by omega⟩
    · rw [Nat.le_div_iff_mul_le (by omega)]
      have := Nat.le_of_dvd (by omega) (Nat.dvd_of_mod_eq_zero hc.1)
      omega
    · have : (i - b + 1) / p < w / p := by
        rw [Nat.div_lt_iff_lt_mul (by omega), hwp]
        exact hc.2
      omega

theorem stands_idem (b w p i : Nat) (hp : 2 ≤ p) (hi : b ≤ i ∧ i < b + w) :
    standsFor b w p (standsFor b w p i) = standsFor b w p i ∧ b ≤ standsFor b w p i ∧ standsFor b w p i < b + w := by
  by_cases h : (i - b + 1) % p = 0 ∧ i - b + 1 < w
  · have : standsFor b w p i = i + 1 := if_pos h
    rw [this]
    refine ⟨?_, by omega, by omega⟩
    unfold standsFor
    rw [if_neg]
    rintro ⟨h1, -⟩
    rw [show i + 1 - b + 1 = (i - b + 1) + 1 by omega, Nat.add_mod, h.1, zero_add, Nat.mod_mod, Nat.mod_eq_of_lt (by omega)] at h1
    omega
  · have : standsFor b w p i = i := if_neg h
    rw [this, this]
    exact ⟨rfl, hi⟩

theorem mem_stepPlaces (B : Box) (p : Nat) (hB : B.Whole p) (x : Place) : x ∈ stepPlaces B p ↔ B.Inside x ∧ B.owner p x = x := by
  obtain ⟨hp, hA, hBw⟩ := hB
  have e1 := stepped_one B.aBegin B.aWidth p hp hA x.1
  have e2 := stepped_one B.bBegin B.bWidth p hp hBw x.2
  unfold stepPlaces
  simp only [List.mem_flatMap, List.mem_range, List.mem_map]
  constructor
  · rintro ⟨a, ha, b, hb, i, hi, j, hj, rfl⟩
    obtain ⟨a1, a2, a3⟩ := e1.1 ⟨a, ha, i, hi, rfl⟩
    obtain ⟨b1, b2, b3⟩ := e2.1 ⟨b, hb, j, hj, rfl⟩
    exact ⟨⟨a1, a2, b1, b2⟩, Prod.ext a3 b3⟩
  · rintro ⟨⟨a1, a2, b1, b2⟩, h⟩
    obtain ⟨a, ha, i, hi, he⟩ := e1.2 ⟨a1, a2, congrArg Prod.fst h⟩
    obtain ⟨b, hb, j, hj, hf⟩ := e2.2 ⟨b1, b2, congrArg Prod.snd h⟩
    exact ⟨a, ha, b, hb, i, hi, j, hj, Prod.ext he.symm hf.symm⟩

theorem block_unique (p a a' i i' : Nat) (hi : i < p) (hi' : i' < p) (h : a * p + i = a' * p + i') : a = a' ∧ i = i' := by
  have h1 : (a * p + i) / p = a := by
    rw [mul_comm, Nat.mul_add_div (by omega), Nat.div_eq_of_lt hi, add_zero]
  have h2 : (a' * p + i') / p = a' := by
    rw [mul_comm, Nat.mul_add_div (by omega), Nat.div_eq_of_lt hi', add_zero]
  have : a = a' := by rw [← h1, h, h2]
  subst this
  exact ⟨rfl, by omega⟩

theorem stepPlaces_nodup (B : Box) (p : Nat) : (stepPlaces B p).Nodup := by
  unfold stepPlaces
  have hlt : ∀ (c : Prop) [Decidable c] (i : Nat), i < (if c then p else p - 1) → i < p := fun c _ i h => by split_ifs at h <;> omega
  have hdisj : ∀ {α : Type} (l : List Nat) (f : Nat → List α), l.Nodup → (∀ a ∈ l, (f a).Nodup) →
      (∀ a ∈ l, ∀ b ∈ l, a ≠ b → ∀ x ∈ f a, x ∉ f b) → (l.flatMap f).Nodup := by
    intro α l f hl h1 h2
    rw [List.nodup_flatMap]
    refine ⟨h1, ?_⟩
    rw [List.pairwise_iff_forall_sublist]
    intro a b hab
    have hsub : List.Nodup [a, b] := hl.sublist hab
    have hne : a ≠ b := by simpa using hsub
    have ha : a ∈ l := hab.subset (by simp)
    have hb : b ∈ l := hab.subset (by simp)
    intro x hx hx'
    exact h2 a ha b hb hne x hx hx'
  refine hdisj _ _ List.nodup_range (fun a ha => ?_) (fun a ha a' ha' hne x hx hx' => ?_)
  · refine hdisj _ _ List.nodup_range (fun b hb => ?_) (fun b hb b' hb' hne x hx hx' => ?_)
    · refine hdisj _ _ List.nodup_range (fun i hi => ?_) (fun i hi i' hi' hne x hx hx' => ?_)
      · refine List.Nodup.map ?_ List.nodup_range
        intro j j' h
        have := congrArg Prod.snd h
        dsimp only at this
        omega
      · obtain ⟨j, hj, rfl⟩ := List.mem_map.1 hx
        obtain ⟨j', hj', h⟩ := List.mem_map.1 hx'
        have := congrArg Prod.fst h
        dsimp only at this
        omega
    · simp only [List.mem_flatMap, List.mem_map, List.mem_range] at hx hx'
      obtain ⟨i, hi, j, hj, rfl⟩ := hx
      obtain ⟨i', hi', j', hj', h⟩ := hx'
      have := congrArg Prod.snd h
      dsimp only at this
      exact hne (block_unique p b b' j j' (hlt _ _ hj) (hlt _ _ hj') (by omega)).1
  · simp only [List.mem_flatMap, List.mem_map, List.mem_range] at hx hx'
    obtain ⟨b, hb, i, hi, j, hj, rfl⟩ := hx
    obtain ⟨b', hb', i', hi', j', hj', h⟩ := hx'
    have := congrArg Prod.fst h
    dsimp only at this
    exact hne (block_unique p a a' i i' (hlt _ _ hi) (hlt _ _ hi') (by omega)).1

/-- Copies in alpha direction. -/
theorem mem_copiesA (B : Box) (p : Nat) (hB : B.Whole p) (d s : Place) : (d, s) ∈ copiesA B p ↔
    (B.Inside d ∧ standsFor B.aBegin B.aWidth p d.1 ≠ d.1 ∧ standsFor B.bBegin B.bWidth p d.2 = d.2) ∧ s = (d.1 + 1, d.2) := by
  obtain ⟨hp, hA, hBw⟩ := hB
  have e1 := copied_one B.aBegin B.aWidth p hp hA d.1
  have e2 := stepped_one B.bBegin B.bWidth p hp hBw d.2
  unfold copiesA
  simp only [List.mem_flatMap, List.mem_range, List.mem_map, List.mem_range'_1]
  constructor
  · rintro ⟨a, ⟨h1, h2⟩, b, hb, j, hj, h⟩
    obtain ⟨rfl, rfl⟩ := Prod.mk.inj h
    obtain ⟨a1, a2, a3⟩ := e1.1 ⟨a, h1, h2, rfl⟩
    obtain ⟨b1, b2, b3⟩ := e2.1 ⟨b, hb, j, hj, rfl⟩
    exact ⟨⟨⟨a1, a2, b1, b2⟩, a3, b3⟩, rfl⟩
  · rintro ⟨⟨⟨a1, a2, b1, b2⟩, h, h'⟩, rfl⟩
    obtain ⟨a, h1, h2, he⟩ := e1.2 ⟨a1, a2, h⟩
    obtain ⟨b, hb, j, hj, hf⟩ := e2.2 ⟨b1, b2, h'⟩
    refine ⟨a, ⟨h1, h2⟩, b, hb, j, hj, ?_⟩
    rw [← he, ← hf]

/-- Copies in beta direction. -/
theorem mem_copiesB (B : Box) (p : Nat) (hB : B.Whole p) (d s : Place) : (d, s) ∈ copiesB B p ↔
    (B.Inside d ∧ standsFor B.bBegin B.bWidth p d.2 ≠ d.2) ∧ s = (d.1, d.2 + 1) := by
  obtain ⟨hp, hA, hBw⟩ := hB
  have e2 := copied_one B.bBegin B.bWidth p hp hBw d.2
  unfold copiesB
  simp only [List.mem_flatMap, List.mem_map, List.mem_range'_1]
  constructor
  · rintro ⟨b, ⟨h1, h2⟩, i, ⟨i1, i2⟩, h⟩
    obtain ⟨rfl, rfl⟩ := Prod.mk.inj h
    obtain ⟨b1, b2, b3⟩ := e2.1 ⟨b, h1, h2, rfl⟩
    exact ⟨⟨⟨i1, i2, b1, b2⟩, b3⟩, rfl⟩
  · rintro ⟨⟨⟨a1, a2, b1, b2⟩, h⟩, rfl⟩
    obtain ⟨b, h1, h2, he⟩ := e2.2 ⟨b1, b2, h⟩
    refine ⟨b, ⟨h1, h2⟩, d.1, ⟨a1, a2⟩, ?_⟩
    rw [← he]

theorem stands_cases (b w p i : Nat) : standsFor b w p i = i ∨ standsFor b w p i = i + 1 := by
  unfold standsFor
  split_ifs
  · exact Or.inr rfl
  · exact Or.inl rfl

/-- After both rounds of copies, every column is its own with what is copied from its owner. -/
theorem copies_spec (S : Setup) (count : Nat) (B : Box) (p : Nat) (hB : B.Whole p) (P : Columns) (x : Place) :
    (B.Inside x → copyAll S count (copiesB B p) (copyAll S count (copiesA B p) P) x = copyColumn S count (P x) (P (B.owner p x))) ∧
    (¬ B.Inside x → copyAll S count (copiesB B p) (copyAll S count (copiesA B p) P) x = P x) := by
  have hself : ∀ s, copyColumn S count s s = s := by
    intro s
    unfold copyColumn
    cases s
    congr 1 <;> · funext c k; split_ifs <;> rfl
  obtain ⟨hp, hA, hBw⟩ := id hB
  obtain ⟨a1, a2⟩ := copyAll_spec (S := S) (count := count) (fun d => (d.1 + 1, d.2)) (copiesA B p)
    (fun ds h => ((mem_copiesA B p hB ds.1 ds.2).1 h).2) (fun ds h ds' h' heq => by
      obtain ⟨⟨hin, h1, -⟩, h2⟩ := (mem_copiesA B p hB ds.1 ds.2).1 h
      obtain ⟨⟨-, h3, -⟩, -⟩ := (mem_copiesA B p hB ds'.1 ds'.2).1 h'
      rw [← heq, h2] at h3
      have h4 := (stands_cases B.aBegin B.aWidth p ds.1.1).resolve_left h1
      have h5 := (stands_idem B.aBegin B.aWidth p ds.1.1 hp ⟨hin.1, hin.2.1⟩).1
      rw [h4] at h5
      exact h3 h5) P
  obtain ⟨b1, b2⟩ := copyAll_spec (S := S) (count := count) (fun d => (d.1, d.2 + 1)) (copiesB B p)
    (fun ds h => ((mem_copiesB B p hB ds.1 ds.2).1 h).2) (fun ds h ds' h' heq => by
      obtain ⟨⟨hin, h1⟩, h2⟩ := (mem_copiesB B p hB ds.1 ds.2).1 h
      obtain ⟨⟨-, h3⟩, -⟩ := (mem_copiesB B p hB ds'.1 ds'.2).1 h'
      rw [← heq, h2] at h3
      have h4 := (stands_cases B.bBegin B.bWidth p ds.1.2).resolve_left h1
      have h5 := (stands_idem B.bBegin B.bWidth p ds.1.2 hp ⟨hin.2.2.1, hin.2.2.2⟩).1
      rw [h4] at h5
      exact h3 h5) (copyAll S count (copiesA B p) P)
  have hrow : ∀ y, B.Inside y → standsFor B.bBegin B.bWidth p y.2 = y.2 →
      copyAll S count (copiesA B p) P y = copyColumn S count (P y) (P (standsFor B.aBegin B.aWidth p y.1, y.2)) := by
    intro y hy hsy
    by_cases h : standsFor B.aBegin B.aWidth p y.1 = y.1
    · rw [a2 y (fun ds hds heq => by
        subst heq
        exact ((mem_copiesA B p hB ds.1 ds.2).1 hds).1.2.1 h), h, hself]
    · rw [a1 (y, (y.1 + 1, y.2)) ((mem_copiesA B p hB _ _).2 ⟨⟨hy, h, hsy⟩, rfl⟩), (stands_cases _ _ _ _).resolve_left h]
  constructor
  · intro hx
    by_cases h : standsFor B.bBegin B.bWidth p x.2 = x.2
    · rw [b2 x (fun ds hds heq => by
        subst heq
        exact ((mem_copiesB B p hB ds.1 ds.2).1 hds).1.2 h), hrow x hx h]
      unfold Box.owner
      rw [h]
    · have hs := (stands_cases _ _ _ _).resolve_left h
      have hi := stands_idem B.bBegin B.bWidth p x.2 hp ⟨hx.2.2.1, hx.2.2.2⟩
      rw [hs] at hi
      rw [b1 (x, (x.1, x.2 + 1)) ((mem_copiesB B p hB _ _).2 ⟨⟨hx, h⟩, rfl⟩)]
      dsimp only
      rw [hrow (x.1, x.2 + 1) ⟨hx.1, hx.2.1, hi.2.1, hi.2.2⟩ hi.1, a2 x (fun ds hds heq => by
        subst heq
        exact h ((mem_copiesA B p hB ds.1 ds.2).1 hds).1.2.2)]
      unfold Box.owner
      rw [hs]
      have hc : ∀ d e s : State, copyColumn S count d (copyColumn S count e s) = copyColumn S count d s := by
        intro d e s
        unfold copyColumn
        congr 1 <;> · funext c k; dsimp only; split_ifs <;> rfl
      rw [hc]
  · intro hx
    rw [b2 x (fun ds hds heq => by
        subst heq
        exact hx ((mem_copiesB B p hB ds.1 ds.2).1 hds).1.1), a2 x (fun ds hds heq => by
        subst heq
        exact hx ((mem_copiesA B p hB ds.1 ds.2).1 hds).1.1)]

end Verif.Vdyn
