/-
Helper lemmas for the exchange buffer registry.
-/
import Verif.Registry.Model
import Mathlib.Data.List.Nodup
import Mathlib.Data.List.Basic
import Mathlib.Tactic.Ring

namespace Verif.Registry

open Verif.Exchange (Header Dir)

/-- Bytes of the entries for processor `q`. -/
def total (es : List Entry) (q : Int) : Nat := ((es.filter fun e => e.proc = q).map Entry.size).sum

theorem total_cons (e : Entry) (es : List Entry) (q : Int) :
    total (e :: es) q = (if e.proc = q then e.size else 0) + total es q := by
  unfold total
  by_cases h : e.proc = q <;> simp [h]

/-- A size map represents a function on a set of keys. -/
structure Rep (M : List (Int × Nat)) (f : Int → Nat) (K : Int → Prop) : Prop where
  sorted : M.Pairwise fun a b => a.1 < b.1
  mem : ∀ q s, (q, s) ∈ M ↔ K q ∧ s = f q

theorem addSize_mem (p : Int) (n : Nat) (M : List (Int × Nat)) (q : Int) (s : Nat)
    (hs : M.Pairwise fun a b => a.1 < b.1) :
    (q, s) ∈ addSize p n M ↔ (q ≠ p ∧ (q, s) ∈ M) ∨
      (q = p ∧ ((∃ m, (p, m) ∈ M ∧ s = m + n) ∨ ((∀ m, (p, m) ∉ M) ∧ s = n))) := by
  induction M with
  | nil => simp [addSize]
  | cons a M ih =>
    obtain ⟨k, m⟩ := a
    rw [List.pairwise_cons] at hs
    obtain ⟨h1, h2⟩ := hs
    have ih := ih h2
    unfold addSize
    by_cases c1 : p < k
    · rw [if_pos c1]
      have hp : ∀ m', (p, m') ∉ (k, m) :: M := by
        intro m' hm
        rcases List.mem_cons.mp hm with h | h
        · simp at h; omega
        · have := h1 _ h; simp at this; omega
      constructor
      · intro h
        rcases List.mem_cons.mp h with h | h
        · simp at h; exact Or.inr ⟨h.1, Or.inr ⟨hp, h.2⟩⟩
        · refine Or.inl ⟨?_, h⟩
          intro e; rw [e] at h; exact hp _ h
      · rintro (⟨h, h'⟩ | ⟨rfl, ⟨m', h, _⟩ | ⟨_, rfl⟩⟩)
        · exact List.mem_cons_of_mem _ h'
        · exact absurd h (hp _)
        · exact List.mem_cons_self
    · rw [if_neg c1]
      by_cases c2 : p = k
      · rw [if_pos c2]
        subst c2
        have hp : ∀ m', (p, m') ∉ M := by
          intro m' hm; have := h1 _ hm; simp at this
        constructor
        · intro h
          rcases List.mem_cons.mp h with h | h
          · simp at h
            exact Or.inr ⟨h.1, Or.inl ⟨m, List.mem_cons_self, h.2⟩⟩
          · refine Or.inl ⟨?_, List.mem_cons_of_mem _ h⟩
            intro e; rw [e] at h; exact hp _ h
        · rintro (⟨h, h'⟩ | ⟨rfl, ⟨m', h, rfl⟩ | ⟨h, _⟩⟩)
          · rcases List.mem_cons.mp h' with e | e
            · simp at e; exact absurd e.1 h
            · exact List.mem_cons_of_mem _ e
          · rcases List.mem_cons.mp h with e | e
            · simp at e; subst e; exact List.mem_cons_self
            · exact absurd e (hp _)
          · exact absurd List.mem_cons_self (h m)
      · rw [if_neg c2, List.mem_cons, ih]
        constructor
        · rintro (h | ⟨h, h'⟩ | ⟨rfl, ⟨m', h, e⟩ | ⟨h, e⟩⟩)
          · simp at h; refine Or.inl ⟨by omega, by simp [h]⟩
          · exact Or.inl ⟨h, List.mem_cons_of_mem _ h'⟩
          · exact Or.inr ⟨rfl, Or.inl ⟨m', List.mem_cons_of_mem _ h, e⟩⟩
          · refine Or.inr ⟨rfl, Or.inr ⟨?_, e⟩⟩
            intro m' hm
            rcases List.mem_cons.mp hm with h' | h'
            · simp at h'; omega
            · exact h _ h'
        · rintro (⟨h, h'⟩ | ⟨rfl, ⟨m', h, e⟩ | ⟨h, e⟩⟩)
          · rcases List.mem_cons.mp h' with e | e
            · exact Or.inl e
            · exact Or.inr (Or.inl ⟨h, e⟩)
          · rcases List.mem_cons.mp h with e' | e'
            · simp at e'; omega
            · exact Or.inr (Or.inr ⟨rfl, Or.inl ⟨m', e', e⟩⟩)
          · exact Or.inr (Or.inr ⟨rfl, Or.inr ⟨fun m' hm => h m' (List.mem_cons_of_mem _ hm), e⟩⟩)

theorem addSize_sorted (p : Int) (n : Nat) (M : List (Int × Nat))
    (hs : M.Pairwise fun a b => a.1 < b.1) : (addSize p n M).Pairwise fun a b => a.1 < b.1 := by
  induction M with
  | nil => simp [addSize]
  | cons a M ih =>
    obtain ⟨k, m⟩ := a
    have hs' := hs
    rw [List.pairwise_cons] at hs
    obtain ⟨h1, h2⟩ := hs
    unfold addSize
    by_cases c1 : p < k
    · rw [if_pos c1, List.pairwise_cons]
      refine ⟨?_, hs'⟩
      intro b hb
      rcases List.mem_cons.mp hb with rfl | h
      · exact c1
      · have := h1 _ h; simp only at this ⊢; omega
    · rw [if_neg c1]
      by_cases c2 : p = k
      · rw [if_pos c2, List.pairwise_cons]; exact ⟨h1, h2⟩
      · rw [if_neg c2, List.pairwise_cons]
        refine ⟨?_, ih h2⟩
        rintro ⟨q, s⟩ hb
        rcases (addSize_mem p n M q s h2).mp hb with ⟨_, h⟩ | ⟨rfl, _⟩
        · exact h1 _ h
        · simp only; omega

theorem Rep.add {M : List (Int × Nat)} {f : Int → Nat} {K : Int → Prop} (R : Rep M f K)
    (h0 : ∀ q, ¬ K q → f q = 0) (p : Int) (n : Nat) :
    Rep (addSize p n M) (fun q => f q + if p = q then n else 0) (fun q => K q ∨ q = p) := by
  refine ⟨addSize_sorted p n M R.sorted, ?_⟩
  intro q s
  rw [addSize_mem p n M q s R.sorted]
  constructor
  · rintro (⟨h, h'⟩ | ⟨rfl, ⟨m, h, rfl⟩ | ⟨h, rfl⟩⟩)
    · obtain ⟨a, b⟩ := (R.mem q s).mp h'
      refine ⟨Or.inl a, ?_⟩
      simp only [if_neg (Ne.symm h)]; omega
    · obtain ⟨a, b⟩ := (R.mem q m).mp h
      refine ⟨Or.inl a, ?_⟩
      simp [b]
    · have hk : ¬ K q := fun hk => h (f q) ((R.mem q _).mpr ⟨hk, rfl⟩)
      refine ⟨Or.inr rfl, ?_⟩
      simp [h0 q hk]
  · rintro ⟨hk, rfl⟩
    by_cases hq : q = p
    · subst hq
      right
      refine ⟨rfl, ?_⟩
      by_cases hK : K q
      · left; exact ⟨f q, (R.mem q _).mpr ⟨hK, rfl⟩, by simp⟩
      · right
        refine ⟨fun m hm => hK ((R.mem q m).mp hm).1, by simp [h0 q hK]⟩
    · left
      refine ⟨hq, (R.mem q _).mpr ⟨?_, by simp [Ne.symm hq]⟩⟩
      exact hk.resolve_right hq

theorem sizeMap_rep (es : List Entry) : ∀ (M : List (Int × Nat)) (f : Int → Nat) (K : Int → Prop),
    (∀ e ∈ es, e.proc ≠ -1) → Rep M f K → (∀ q, ¬ K q → f q = 0) →
    ∃ M', sizeMap es M = some M' ∧ Rep M' (fun q => f q + total es q) (fun q => K q ∨ ∃ e ∈ es, e.proc = q) := by
  induction es with
  | nil =>
    intro M f K _ R _
    refine ⟨M, rfl, ?_⟩
    simpa [total] using R
  | cons e es ih =>
    intro M f K hp R h0
    have h1 := R.add h0 e.proc e.size
    obtain ⟨M', a, b⟩ := ih (addSize e.proc e.size M) _ _ (fun x hx => hp x (by simp [hx])) h1 (by
      intro q hq
      have hq1 : ¬ K q := fun h => hq (Or.inl h)
      have hq2 : ¬ e.proc = q := fun h => hq (Or.inr h.symm)
      simp [h0 q hq1, hq2])
    refine ⟨M', ?_, b.sorted, ?_⟩
    · simp only [sizeMap, if_neg (hp e (by simp)), a]
    · intro q s
      rw [b.mem q s, total_cons]
      simp only [List.mem_cons, exists_eq_or_imp, or_assoc]
      constructor
      · rintro ⟨h, rfl⟩
        refine ⟨?_, by omega⟩
        rcases h with h | h | h
        · exact Or.inl h
        · exact Or.inr (Or.inl h.symm)
        · exact Or.inr (Or.inr h)
      · rintro ⟨h, rfl⟩
        refine ⟨?_, by omega⟩
        rcases h with h | h | h
        · exact Or.inl h
        · exact Or.inr (Or.inl h.symm)
        · exact Or.inr (Or.inr h)

theorem findProc_mem (q : Int) (ps : List Int) (n : Nat) (h : q ∈ ps) :
    ∃ k, findProc q ps n = some (n + k) ∧ ps[k]? = some q := by
  induction ps generalizing n with
  | nil => simp at h
  | cons p ps ih =>
    unfold findProc
    by_cases hq : q = p
    · exact ⟨0, by rw [if_pos hq]; rfl, by simp [hq]⟩
    · obtain ⟨k, h1, h2⟩ := ih (n + 1) (by simpa [hq] using h)
      exact ⟨k + 1, by rw [if_neg hq, h1]; congr 1; omega, by simpa using h2⟩

/-- Two positions of a list without repetition holding the same element are equal. -/
theorem index_inj {ps : List Int} (hnd : ps.Nodup) {i j : Nat} {q : Int} (hi : ps[i]? = some q)
    (hj : ps[j]? = some q) : i = j := by
  have h1 : i < ps.length := by
    by_contra h; rw [List.getElem?_eq_none (by omega)] at hi; cases hi
  exact (List.getElem?_inj h1 hnd).mp (by rw [hi, hj])

/-- Offset of entry `m` within the buffer of processor `q`. -/
def before (es : List Entry) (q : Int) (m : Nat) : Nat := total (es.take m) q

theorem before_zero (es : List Entry) (q : Int) : before es q 0 = 0 := by simp [before, total]

theorem before_succ (e : Entry) (es : List Entry) (q : Int) (m : Nat) :
    before (e :: es) q (m + 1) = (if e.proc = q then e.size else 0) + before es q m := by
  simp [before, total_cons]

theorem placeAll_ok (procs : List Int) (hnd : procs.Nodup) (es : List Entry) : ∀ pos : List Nat,
    pos.length = procs.length → (∀ e ∈ es, e.size % 8 = 0 ∧ e.proc ∈ procs) →
    ∃ l, placeAll procs es pos = some l ∧ l.length = es.length ∧
      ∀ m e, es[m]? = some e → ∃ p o, procs[p]? = some e.proc ∧ pos[p]? = some o ∧
        l[m]? = some (p, o + before es e.proc m) := by
  induction es with
  | nil => intro pos _ _; exact ⟨[], rfl, rfl, by simp⟩
  | cons e es ih =>
    intro pos hlen hes
    obtain ⟨h8, hmem⟩ := hes e (by simp)
    obtain ⟨k, hk, hk'⟩ := findProc_mem e.proc procs 0 hmem
    rw [Nat.zero_add] at hk
    have hkl : k < procs.length := by
      by_contra h; rw [List.getElem?_eq_none (by omega)] at hk'; cases hk'
    obtain ⟨l, a, b, c⟩ := ih (pos.modify k (· + e.size)) (by simp [hlen]) (fun x hx => hes x (by simp [hx]))
    have hpos : pos[k]? = some (pos[k]'(by omega)) := List.getElem?_eq_getElem _
    refine ⟨(k, pos[k]'(by omega)) :: l, ?_, by simp [b], ?_⟩
    · simp only [placeAll, h8, hk, a, hpos, ne_eq, not_true_eq_false, if_false]
    · intro m x hx
      cases m with
      | zero =>
        simp at hx
        subst hx
        exact ⟨k, _, hk', hpos, by simp [before_zero]⟩
      | succ m =>
        simp at hx
        obtain ⟨p, o, d1, d2, d3⟩ := c m x hx
        rw [List.getElem?_modify] at d2
        have hpl : p < pos.length := by
          by_contra h
          rw [List.getElem?_eq_none (by omega)] at d2
          cases d2
        rw [List.getElem?_eq_getElem hpl] at d2
        simp only [Option.map_eq_map, Option.map_some, Option.some.injEq] at d2
        refine ⟨p, pos[p], d1, List.getElem?_eq_getElem hpl, ?_⟩
        simp only [List.getElem?_cons_succ, d3, before_succ, Option.some.injEq, Prod.mk.injEq, true_and]
        by_cases hkp : k = p
        · subst hkp
          have : e.proc = x.proc := by rw [hk'] at d1; exact Option.some.inj d1
          simp only [if_true, this] at d2 ⊢
          omega
        · have : ¬ e.proc = x.proc := by
            intro h; rw [h] at hk'; exact hkp (index_inj hnd hk' d1)
          simp only [hkp, if_false, this] at d2 ⊢
          omega

theorem before_le (es : List Entry) (q : Int) (m : Nat) (e : Entry) (h : es[m]? = some e) (hq : e.proc = q) :
    before es q m + e.size ≤ total es q := by
  induction es generalizing m with
  | nil => simp at h
  | cons a es ih =>
    cases m with
    | zero =>
      simp at h; subst h
      rw [before_zero, total_cons, if_pos hq]; omega
    | succ m =>
      simp at h
      have := ih m h
      rw [before_succ, total_cons]; omega

theorem before_disjoint (es : List Entry) (q : Int) (m m' : Nat) (e : Entry) (h : es[m]? = some e)
    (hq : e.proc = q) (hm : m < m') : before es q m + e.size ≤ before es q m' := by
  induction es generalizing m m' with
  | nil => simp at h
  | cons a es ih =>
    cases m' with
    | zero => omega
    | succ m' =>
      rw [before_succ]
      cases m with
      | zero =>
        simp at h; subst h
        rw [before_zero, if_pos hq]; omega
      | succ m =>
        simp at h
        have := ih m m' h (by omega)
        rw [before_succ]; omega

theorem before_cover (es : List Entry) (q : Int) (b : Nat) (hb : b < total es q) :
    ∃ m e, es[m]? = some e ∧ e.proc = q ∧ before es q m ≤ b ∧ b < before es q m + e.size := by
  induction es generalizing b with
  | nil => simp [total] at hb
  | cons a es ih =>
    rw [total_cons] at hb
    by_cases hq : a.proc = q
    · rw [if_pos hq] at hb
      by_cases hlt : b < a.size
      · exact ⟨0, a, rfl, hq, by simp [before_zero], by simp [before_zero]; omega⟩
      · obtain ⟨m, e, h1, h2, h3, h4⟩ := ih (b - a.size) (by omega)
        refine ⟨m + 1, e, by simpa using h1, h2, ?_, ?_⟩ <;> rw [before_succ, if_pos hq] <;> omega
    · rw [if_neg hq, Nat.zero_add] at hb
      obtain ⟨m, e, h1, h2, h3, h4⟩ := ih b hb
      refine ⟨m + 1, e, by simpa using h1, h2, ?_, ?_⟩ <;> rw [before_succ, if_neg hq] <;> omega

/-- Registry indices of the entries for processor `q`, counted from `m0`. -/
def indices (q : Int) : List Entry → Nat → List Nat
  | [], _ => []
  | e :: es, m => if e.proc = q then m :: indices q es (m + 1) else indices q es (m + 1)

theorem indices_mem (q : Int) (es : List Entry) (m0 m : Nat) :
    m ∈ indices q es m0 ↔ ∃ k e, m = m0 + k ∧ es[k]? = some e ∧ e.proc = q := by
  induction es generalizing m0 with
  | nil => simp [indices]
  | cons a es ih =>
    have hsucc : (∃ k e, m = m0 + 1 + k ∧ es[k]? = some e ∧ e.proc = q) ↔
        ∃ k e, m = m0 + (k + 1) ∧ (a :: es)[k + 1]? = some e ∧ e.proc = q := by
      simp only [List.getElem?_cons_succ]
      constructor <;> rintro ⟨k, e, h, r⟩ <;> exact ⟨k, e, by omega, r⟩
    unfold indices
    by_cases hq : a.proc = q
    · rw [if_pos hq, List.mem_cons, ih, hsucc]
      constructor
      · rintro (rfl | ⟨k, e, h⟩)
        · exact ⟨0, a, by omega, rfl, hq⟩
        · exact ⟨k + 1, e, h⟩
      · rintro ⟨k, e, h⟩
        cases k with
        | zero => left; omega
        | succ k => right; exact ⟨k, e, h⟩
    · rw [if_neg hq, ih, hsucc]
      constructor
      · rintro ⟨k, e, h⟩; exact ⟨k + 1, e, h⟩
      · rintro ⟨k, e, h1, h2, h3⟩
        cases k with
        | zero => simp at h2; subst h2; exact absurd h3 hq
        | succ k => exact ⟨k, e, h1, h2, h3⟩

theorem indices_sorted (q : Int) (es : List Entry) (m0 : Nat) : (indices q es m0).Pairwise (· < ·) := by
  induction es generalizing m0 with
  | nil => simp [indices]
  | cons a es ih =>
    unfold indices
    by_cases hq : a.proc = q
    · rw [if_pos hq, List.pairwise_cons]
      refine ⟨?_, ih _⟩
      intro x hx
      obtain ⟨k, _, h, _⟩ := (indices_mem q es _ x).mp hx
      omega
    · rw [if_neg hq]; exact ih _

theorem lookupTable_ok (procs : List Int) (hnd : procs.Nodup) (es : List Entry) :
    ∀ (m : Nat) (T : List (List Nat)), T.length = procs.length → (∀ e ∈ es, e.proc ∈ procs) →
    ∃ T', lookupTable procs es m T = some T' ∧ T'.length = T.length ∧
      ∀ (p : Nat) (q : Int) (l : List Nat), procs[p]? = some q → T[p]? = some l → T'[p]? = some (l ++ indices q es m) := by
  induction es with
  | nil =>
    intro m T _ _
    exact ⟨T, rfl, rfl, fun p q l _ h => by simpa [indices] using h⟩
  | cons e es ih =>
    intro m T hlen hes
    obtain ⟨k, hk, hk'⟩ := findProc_mem e.proc procs 0 (hes e (by simp))
    rw [Nat.zero_add] at hk
    obtain ⟨T', a, b, c⟩ := ih (m + 1) (T.modify k (· ++ [m])) (by simp [hlen]) (fun x hx => hes x (by simp [hx]))
    refine ⟨T', by simp only [lookupTable, hk, a], by simpa using b, ?_⟩
    intro p q l hp hl
    unfold indices
    by_cases hkp : k = p
    · subst hkp
      have he : e.proc = q := by rw [hk'] at hp; exact Option.some.inj hp
      rw [if_pos he, c k q (l ++ [m]) hp (by rw [List.getElem?_modify]; simp [hl])]
      simp
    · have he : ¬ e.proc = q := by
        intro h; rw [h] at hk'; exact hkp (index_inj hnd hk' hp)
      rw [if_neg he, c p q l hp (by rw [List.getElem?_modify]; simp [hl, hkp])]

end Verif.Registry
