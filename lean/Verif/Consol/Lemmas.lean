import Mathlib.Data.List.Nodup
import Verif.Consol.Model
import Verif.Consol.Spec

namespace Verif.Consol

open Verif.Exchange (Res)

theorem pairKey_inj {t l t' l' : Int} (h : ValidLocation l) (h' : ValidLocation l') (e : pairKey t l = pairKey t' l') :
    t = t' ∧ l = l' := by
  unfold ValidLocation pairKey at *; omega

theorem find_append (m1 m2 : List (Int × Nat)) (k : Int) :
    find (m1 ++ m2) k = (match find m1 k with | some v => some v | none => find m2 k) := by
  induction m1 with
  | nil => rfl
  | cons p m1 ih =>
    obtain ⟨k', v⟩ := p
    simp only [List.cons_append, find]
    split
    · rfl
    · exact ih

theorem find_insertNew (map : List (Int × Nat)) (k k' : Int) (m : Nat) :
    find (insertNew map k m) k' = (match find map k' with | some v => some v | none => if k = k' then some m else none) := by
  unfold insertNew
  cases h : find map k with
  | some v =>
    simp only
    cases h' : find map k' with
    | some v' => rfl
    | none =>
      by_cases e : k = k'
      · rw [e, h'] at h; simp at h
      · simp [e]
  | none =>
    simp only
    rw [find_append]
    cases find map k' <;> simp [find]

/-- Index of the first request equal to `q`. -/
def position (req : List (Int × Int)) (k : Int) : Option Nat := req.findIdx? (fun q => pairKey q.1 q.2 == k)

theorem find_build (req : List (Int × Int)) (j : Nat) (map : List (Int × Nat)) (k : Int) :
    find (buildTypes req j map) k =
      (match find map k with | some v => some v | none => (position req k).map (· + j)) := by
  induction req generalizing j map with
  | nil => simp only [buildTypes, position, List.findIdx?_nil]; cases find map k <;> rfl
  | cons q req ih =>
    obtain ⟨t, l⟩ := q
    simp only [buildTypes]
    rw [ih, find_insertNew]
    cases find map k with
    | some v => rfl
    | none =>
      simp only [position, List.findIdx?_cons]
      by_cases e : pairKey t l = k
      · simp [e]
      · simp only [e, if_false, beq_iff_eq]
        cases List.findIdx? (fun q => pairKey q.1 q.2 == k) req with
        | none => rfl
        | some v => simp; omega

theorem find_create (rank active patches : Nat) (req : List (Int × Int)) (k : Int) :
    find (create rank active patches req).types k = position req k := by
  have : (create rank active patches req).types = buildTypes req 0 [] := by unfold create; split <;> rfl
  rw [this, find_build]
  simp [find]

theorem position_lt {req : List (Int × Int)} {k : Int} {m : Nat} (h : position req k = some m) :
    ∃ q, req[m]? = some q ∧ pairKey q.1 q.2 = k := by
  unfold position at h
  obtain ⟨hm, h1, -⟩ := List.findIdx?_eq_some_iff_getElem.1 h
  exact ⟨req[m], List.getElem?_eq_getElem hm, by simpa using h1⟩

theorem position_nodup {req : List (Int × Int)} (hv : ValidRequest req) (hn : req.Nodup) {m : Nat} {q : Int × Int}
    (h : req[m]? = some q) : position req (pairKey q.1 q.2) = some m := by
  obtain ⟨hm, e⟩ := List.getElem?_eq_some_iff.1 h
  unfold position
  rw [List.findIdx?_eq_some_iff_getElem]
  refine ⟨hm, by simp [e], ?_⟩
  intro j hj
  simp only [beq_iff_eq, Bool.not_eq_true]
  intro hk
  have hjm : j < req.length := by omega
  have e1 := pairKey_inj (hv _ (List.getElem_mem hjm)) (hv q (e ▸ List.getElem_mem hm)) hk
  have e2 : req[j] = req[m] := by rw [e]; exact Prod.ext e1.1 e1.2
  have := (List.Nodup.getElem_inj_iff hn).1 e2
  omega

theorem countP_insert {l : List Nat} (hn : l.Nodup) {p : Nat → Bool} {x : Nat} (hx : x ∈ l) (hp : p x = false) :
    l.countP (fun i => p i || i == x) = l.countP p + 1 := by
  induction l with
  | nil => simp at hx
  | cons y l ih =>
    rw [List.nodup_cons] at hn
    rw [List.countP_cons, List.countP_cons]
    by_cases e : y = x
    · subst e
      have : l.countP (fun i => p i || i == y) = l.countP p := by
        apply List.countP_congr
        intro i hi
        have : i ≠ y := fun h => hn.1 (h ▸ hi)
        simp [this]
      simp [this, hp]
    · have hx' : x ∈ l := by simpa [Ne.symm e] using hx
      rw [ih hn.2 hx']
      have : (y == x) = false := by simp [e]
      simp only [this, Bool.or_false]
      split <;> omega

/-- The status after the pairs (patch, position of the type) in `acc` have been recorded. -/
structure Inv (n : Nat) (req : List (Int × Int)) (acc : List (Nat × Nat)) (s : Status) : Prop where
  types : ∀ k, find s.types k = position req k
  len : s.got.length = n
  row : ∀ i < n, ∀ m < req.length, ∃ r, s.got[i]? = some r ∧ r[m]? = some (decide ((i, m) ∈ acc))
  clen : s.counts.length = req.length
  count : ∀ m < req.length, s.counts[m]? = some ((List.range n).countP fun i => decide ((i, m) ∈ acc))

theorem inv_create (active n : Nat) (req : List (Int × Int)) : Inv n req [] (create 0 active n req) where
  types := find_create 0 active n req
  len := by simp [create]
  row := by
    intro i hi m hm
    refine ⟨List.replicate req.length false, ?_, ?_⟩
    · simp [create, List.getElem?_replicate, hi]
    · simp [List.getElem?_replicate, hm]
  clen := by simp [create]
  count := by
    intro m hm
    simp [create, List.getElem?_replicate, hm]

/-- What happens to one message: recorded if the type is requested, the patch in range, and the pair is new. -/
theorem inv_set {n : Nat} {req : List (Int × Int)} {acc : List (Nat × Nat)} {s : Status} (h : Inv n req acc s)
    (ix t l : Int) :
    (∃ m i : Nat, position req (pairKey t l) = some m ∧ ix = (i : Int) ∧ i < n ∧ (i, m) ∉ acc ∧
      ∃ s', setReceive s ix t l = .ok s' ∧ Inv n req ((i, m) :: acc) s') ∨
    (setReceive s ix t l = .exc ∧
      (position req (pairKey t l) = none ∨ (ix < 0 ∨ ix ≥ n) ∨
        ∃ m i : Nat, position req (pairKey t l) = some m ∧ ix = (i : Int) ∧ i < n ∧ (i, m) ∈ acc)) := by
  unfold setReceive
  rw [h.types]
  cases hp : position req (pairKey t l) with
  | none => right; exact ⟨rfl, Or.inl rfl⟩
  | some m =>
    simp only [h.len]
    by_cases hr : ix < 0 ∨ ix ≥ (n : Int)
    · right; rw [if_pos hr]; exact ⟨rfl, Or.inr (Or.inl hr)⟩
    rw [if_neg hr]
    obtain ⟨i, rfl⟩ : ∃ i : Nat, ix = i := ⟨ix.toNat, by omega⟩
    have hi : i < n := by omega
    have hm : m < req.length := by
      obtain ⟨q, hq, -⟩ := position_lt hp
      exact (List.getElem?_eq_some_iff.1 hq).1
    obtain ⟨r, hr1, hr2⟩ := h.row i hi m hm
    simp only [Int.toNat_natCast, hr1, hr2]
    by_cases hin : (i, m) ∈ acc
    · right
      simp only [hin, decide_true]
      exact ⟨trivial, Or.inr (Or.inr ⟨m, i, rfl, rfl, hi, hin⟩)⟩
    · left
      simp only [hin, decide_false]
      refine ⟨m, i, rfl, rfl, hi, hin, _, rfl, ?_⟩
      constructor
      · exact h.types
      · simpa using h.len
      · intro i' hi' m' hm'
        obtain ⟨r', h1, h2⟩ := h.row i' hi' m' hm'
        simp only [List.getElem?_modify]
        by_cases e : i = i'
        · subst e
          rw [hr1] at h1; cases h1
          refine ⟨r.set m true, by simp [hr1], ?_⟩
          rw [List.getElem?_set]
          by_cases e' : m = m'
          · subst e'
            have : m < r.length := (List.getElem?_eq_some_iff.1 hr2).1
            simp [this]
          · rw [if_neg e', h2]
            simp [Ne.symm e']
        · refine ⟨r', by simp [e, h1], ?_⟩
          rw [h2]
          simp [Ne.symm e]
      · simpa using h.clen
      · intro m' hm'
        simp only [List.getElem?_modify, h.count m' hm']
        by_cases e : m = m'
        · subst e
          simp only [if_true, Option.map_eq_map, Option.map_some, Option.some.injEq]
          rw [← countP_insert (p := fun i => decide ((i, m) ∈ acc)) List.nodup_range (List.mem_range.2 hi) (by simpa using hin)]
          apply List.countP_congr
          intro a _
          simp [or_comm]
        · simp only [e, if_false, Option.map_eq_map, Option.map_some, Option.some.injEq]
          apply List.countP_congr
          intro a _
          simp [Ne.symm e]

theorem inv_done {n : Nat} {req : List (Int × Int)} {acc : List (Nat × Nat)} {s : Status} (h : Inv n req acc s) :
    done s = true ↔ ∀ m < req.length, ∀ i < n, (i, m) ∈ acc := by
  unfold done
  rw [List.all_eq_true, h.len]
  constructor
  · intro ha m hm i hi
    have hc := h.count m hm
    have := ha _ (List.mem_of_getElem? hc)
    simp only [beq_iff_eq] at this
    have h2 : (List.range n).countP (fun i => decide ((i, m) ∈ acc)) = (List.range n).length := by simpa using this
    have := List.countP_eq_length.1 h2 i (List.mem_range.2 hi)
    simpa using this
  · intro ha c hc
    obtain ⟨m, hm, rfl⟩ := List.mem_iff_getElem.1 hc
    have hm' : m < req.length := by rw [← h.clen]; exact hm
    have := h.count m hm'
    rw [List.getElem?_eq_getElem hm] at this
    rw [Option.some.inj this]
    have h2 : (List.range n).countP (fun i => decide ((i, m) ∈ acc)) = (List.range n).length :=
      List.countP_eq_length.2 (by intro i hi; simpa using ha m hm' i (List.mem_range.1 hi))
    simp [h2]

/-- After any messages: no undefined behaviour, and exactly the meaningful pairs have been recorded. -/
theorem inv_receive {n : Nat} {req : List (Int × Int)} (msgs : List (Int × Int × Int)) {acc : List (Nat × Nat)}
    {s : Status} (h : Inv n req acc s) : ∃ s' acc', receive s msgs = some s' ∧ Inv n req acc' s' ∧
      ∀ i m : Nat, (i, m) ∈ acc' ↔ (i, m) ∈ acc ∨
        (i < n ∧ ∃ q ∈ msgs, q.1 = (i : Int) ∧ position req (pairKey q.2.1 q.2.2) = some m) := by
  induction msgs generalizing acc s with
  | nil => exact ⟨s, acc, rfl, h, by simp⟩
  | cons q msgs ih =>
    obtain ⟨ix, t, l⟩ := q
    rcases inv_set h ix t l with ⟨m0, i0, hp, rfl, hi, hin, s', hs, hI⟩ | ⟨hs, hc⟩
    · obtain ⟨s'', acc', h1, h2, h3⟩ := ih hI
      refine ⟨s'', acc', by simp only [receive, hs]; exact h1, h2, ?_⟩
      intro i m
      rw [h3]
      simp only [List.mem_cons, Prod.mk.injEq, exists_eq_or_imp, hp, Option.some.injEq]
      constructor
      · rintro ((⟨rfl, rfl⟩ | h) | ⟨hn, h⟩)
        · exact Or.inr ⟨hi, Or.inl ⟨rfl, rfl⟩⟩
        · exact Or.inl h
        · exact Or.inr ⟨hn, Or.inr h⟩
      · rintro (h | ⟨hn, ⟨e1, e2⟩ | h⟩)
        · exact Or.inl (Or.inr h)
        · exact Or.inl (Or.inl ⟨by omega, e2.symm⟩)
        · exact Or.inr ⟨hn, h⟩
    · obtain ⟨s'', acc', h1, h2, h3⟩ := ih h
      refine ⟨s'', acc', by simp only [receive, hs]; exact h1, h2, ?_⟩
      intro i m
      rw [h3]
      simp only [List.mem_cons, exists_eq_or_imp]
      constructor
      · rintro (h | ⟨hn, h⟩)
        · exact Or.inl h
        · exact Or.inr ⟨hn, Or.inr h⟩
      · rintro (h | ⟨hn, ⟨e1, e2⟩ | h⟩)
        · exact Or.inl h
        · left
          rcases hc with hc | hc | ⟨m', i', hp, e, hi', hc⟩
          · rw [hc] at e2; simp at e2
          · omega
          · rw [hp] at e2
            cases e2
            have : i = i' := by omega
            rw [this]; exact hc
        · exact Or.inr ⟨hn, h⟩

end Verif.Consol
