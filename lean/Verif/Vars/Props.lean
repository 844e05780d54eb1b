import Verif.Vars.Model
import Mathlib.Data.List.Nodup

/-!
# C61: variable bookkeeping per location is a bijection
-/

namespace Verif.Vars

theorem count_at (k k' : Counters) (l : Loc) (ix : Nat) (h : count k l = some (ix, k')) :
    ix = k.at l ∧ k'.at l = k.at l + 1 ∧ (∀ m, m ≠ l → k'.at m = k.at m) ∧ ∀ n, l ≠ .other n := by
  cases l <;> simp [count] at h <;> obtain ⟨rfl, rfl⟩ := h <;>
    refine ⟨rfl, rfl, ?_, by simp⟩ <;> intro m hm <;> cases m <;> first | rfl | exact absurd rfl hm

theorem number_at : ∀ (locs : List Loc) (k k' : Counters) (ixs : List Nat),
    number k locs = some (ixs, k') →
    ixs.length = locs.length ∧
    (∀ c (hc : c < locs.length), ixs[c]? = some (k.at locs[c] + (locs.take c).count locs[c])) ∧
    (∀ l, (∀ n, l ≠ .other n) → k'.at l = k.at l + locs.count l) ∧
    (∀ l ∈ locs, ∀ n, l ≠ .other n) := by
  intro locs
  induction locs with
  | nil =>
    intro k k' ixs h
    simp [number] at h
    obtain ⟨rfl, rfl⟩ := h
    refine ⟨rfl, ?_, ?_, ?_⟩
    · intro c hc; simp at hc
    · intro l _; simp
    · intro l hl; simp at hl
  | cons l ls ih =>
    intro k k' ixs h
    rw [number] at h
    cases h1 : count k l with
    | none => rw [h1] at h; simp at h
    | some r =>
      obtain ⟨ix, k1⟩ := r
      rw [h1] at h
      simp only at h
      cases h2 : number k1 ls with
      | none => rw [h2] at h; simp at h
      | some r2 =>
        obtain ⟨rest, k2⟩ := r2
        rw [h2] at h
        simp only [Option.some.injEq, Prod.mk.injEq] at h
        obtain ⟨rfl, rfl⟩ := h
        obtain ⟨a1, a2, a3, a4⟩ := count_at k k1 l ix h1
        obtain ⟨b1, b2, b3, b4⟩ := ih k1 k2 rest h2
        refine ⟨by simp [b1], ?_, ?_, ?_⟩
        · intro c hc
          cases c with
          | zero => simp [a1]
          | succ c =>
            have hc' : c < ls.length := by simpa using hc
            simp only [List.getElem?_cons_succ, List.getElem_cons_succ, List.take_succ_cons]
            rw [b2 c hc', List.count_cons]
            by_cases e : ls[c] = l
            · rw [e, a2]; simp; omega
            · rw [a3 _ e, if_neg (by simpa using fun x => e x.symm)]; simp
        · intro m hm
          rw [b3 m hm, List.count_cons]
          by_cases e : m = l
          · subst e; rw [a2]; simp; omega
          · rw [a3 _ e, if_neg (by simpa using fun x => e x.symm)]; simp
        · intro m hm
          rcases List.mem_cons.mp hm with rfl | hm
          · exact a4
          · exact b4 m hm

/-- Each component gets, at its location, the number of earlier components stored
at the same location, and the counter of a location ends as the number of
components stored there. -/
theorem C61_index (locs : List Loc) (ixs : List Nat) (k : Counters)
    (h : indices locs = some (ixs, k)) :
    ixs.length = locs.length ∧
    (∀ c (hc : c < locs.length), ixs[c]? = some ((locs.take c).count locs[c])) ∧
    (∀ l, (∀ n, l ≠ .other n) → k.at l = locs.count l) := by
  obtain ⟨a1, a2, a3, _⟩ := number_at locs _ _ _ h
  refine ⟨a1, ?_, ?_⟩
  · intro c hc
    rw [a2 c hc]
    cases locs[c] <;> simp [Counters.at]
  · intro l hl
    rw [a3 l hl]
    cases l <;> simp [Counters.at]

/-- Location and index together identify the component. -/
theorem C61_injective (locs : List Loc) (ixs : List Nat) (k : Counters)
    (h : indices locs = some (ixs, k)) (c d : Nat) (hc : c < locs.length) (hd : d < locs.length)
    (hl : locs[c] = locs[d]) (hi : ixs[c]? = ixs[d]?) : c = d := by
  obtain ⟨_, a2, _⟩ := C61_index locs ixs k h
  rw [a2 c hc, a2 d hd, hl] at hi
  have hi := Option.some.inj hi
  have mono : ∀ a b (hb : b < locs.length), a < b → ∀ (ha : a < locs.length),
      (locs.take a).count locs[a] < (locs.take b).count locs[a] := by
    intro a b hb hab ha
    have h1 : (locs.take (a + 1)).count locs[a] ≤ (locs.take b).count locs[a] :=
      List.Sublist.count_le _ (by
        rw [show locs.take (a + 1) = (locs.take b).take (a + 1) by
          rw [List.take_take, Nat.min_eq_left (by omega)]]
        exact List.take_sublist _ _)
    have h2 : (locs.take (a + 1)).count locs[a] = (locs.take a).count locs[a] + 1 := by
      rw [List.take_succ_eq_append_getElem ha, List.count_append]; simp
    omega
  rcases Nat.lt_trichotomy c d with hlt | he | hgt
  · have := mono c d hd hlt hc
    rw [hl] at this; omega
  · exact he
  · have := mono d c hc hgt hd
    omega

/-- The indices used at a location are exactly `0, 1, …` up to below its counter:
none is skipped and none is too large. -/
theorem C61_consecutive (locs : List Loc) (ixs : List Nat) (k : Counters)
    (h : indices locs = some (ixs, k)) (l : Loc) (hl : ∀ n, l ≠ .other n) (x : Nat) :
    x < k.at l ↔ ∃ c, ∃ hc : c < locs.length, locs[c] = l ∧ ixs[c]? = some x := by
  obtain ⟨_, a2, a3⟩ := C61_index locs ixs k h
  rw [a3 l hl]
  have key : ∀ (ls : List Loc) (x : Nat), x < ls.count l ↔
      ∃ c, ∃ hc : c < ls.length, ls[c] = l ∧ (ls.take c).count l = x := by
    intro ls
    induction ls with
    | nil => intro x; simp
    | cons m ms ih =>
      intro x
      rw [List.count_cons]
      by_cases e : m = l
      · subst e
        cases x with
        | zero =>
          constructor
          · intro _; exact ⟨0, by simp, by simp, by simp⟩
          · intro _; simp
        | succ x =>
          simp only [beq_self_eq_true, if_true, Nat.add_lt_add_iff_right]
          rw [ih x]
          constructor
          · rintro ⟨c, hc, h1, h2⟩
            exact ⟨c + 1, by simpa using hc, by simpa using h1, by simp [h2]⟩
          · rintro ⟨c, hc, h1, h2⟩
            cases c with
            | zero => simp at h2
            | succ c => exact ⟨c, by simpa using hc, by simpa using h1, by simpa using h2⟩
      · rw [if_neg (by simpa using e), Nat.add_zero, ih x]
        constructor
        · rintro ⟨c, hc, h1, h2⟩
          exact ⟨c + 1, by simpa using hc, by simpa using h1, by
            rw [List.take_succ_cons, List.count_cons, if_neg (by simpa using e), h2]; rfl⟩
        · rintro ⟨c, hc, h1, h2⟩
          cases c with
          | zero => exact absurd (by simpa using h1) e
          | succ c =>
            rw [List.take_succ_cons, List.count_cons, if_neg (by simpa using e)] at h2
            exact ⟨c, by simpa using hc, by simpa using h1, h2⟩
  rw [key locs x]
  constructor
  · rintro ⟨c, hc, h1, h2⟩
    exact ⟨c, hc, h1, by rw [a2 c hc, h1, h2]⟩
  · rintro ⟨c, hc, h1, h2⟩
    rw [a2 c hc, h1] at h2
    exact ⟨c, hc, h1, Option.some.inj h2⟩

/-- The numbering succeeds exactly when every component sits at one of the four
locations. -/
theorem C61_accepts (locs : List Loc) :
    (indices locs).isSome ↔ ∀ l ∈ locs, ∀ n, l ≠ .other n := by
  constructor
  · intro h
    obtain ⟨⟨ixs, k⟩, e⟩ := Option.isSome_iff_exists.mp h
    exact (number_at locs _ _ _ e).2.2.2
  · unfold indices
    generalize (⟨0, 0, 0, 0⟩ : Counters) = k
    induction locs generalizing k with
    | nil => intro _; rfl
    | cons l ls ih =>
      intro h
      have hl := h l (by simp)
      rw [number]
      have : ∃ r, count k l = some r := by
        cases l with
        | other n => exact absurd rfl (hl n)
        | _ => exact ⟨_, rfl⟩
      obtain ⟨⟨ix, k1⟩, e⟩ := this
      rw [e]
      have hs := ih k1 (fun m hm => h m (by simp [hm]))
      obtain ⟨⟨ixs, k2⟩, e2⟩ := Option.isSome_iff_exists.mp hs
      simp only [e2]
      rfl

/-- The locations chosen for a three-dimensional set of five components: vertical
velocity (3) on interfaces for the Lorenz staggering, vertical velocity and
potential temperature (2 and 3) for Charney-Phillips, everything on levels
otherwise; the previous contents do not matter, and an unknown staggering is
refused. -/
theorem C61_staggering (locs : List Loc) (h5 : locs.length = 5) :
    assign 3 .levels locs = some [.node, .node, .node, .node, .node] ∧
    assign 3 .interfaces locs = some [.node, .node, .node, .node, .node] ∧
    assign 3 .lorenz locs = some [.node, .node, .node, .rEdge, .node] ∧
    assign 3 .charneyPhillips locs = some [.node, .node, .rEdge, .rEdge, .node] ∧
    assign 3 .other locs = none := by
  match locs, h5 with
  | [a, b, c, d, e], _ => simp [assign, setLoc]

/-- The two-dimensional case: three components on nodes, any staggering. -/
theorem C61_flat (locs : List Loc) (h3 : locs.length = 3) (s : Staggering) :
    assign 2 s locs = some [.node, .node, .node] ∧
    ∀ dim, dim ≠ 2 → dim ≠ 3 → assign dim s locs = none := by
  match locs, h3 with
  | [a, b, c], _ =>
    refine ⟨by simp [assign, setLoc], ?_⟩
    intro dim h2 h3
    simp [assign, h2, h3]

/-- Charney-Phillips: the indices are 0, 1, 0, 1, 2 — two interface variables and
three on levels. -/
example : indices [.node, .node, .rEdge, .rEdge, .node] = some ([0, 1, 0, 1, 2], ⟨3, 0, 0, 2⟩) := rfl

example : (indices [.node, .other 7]).isSome = false := by decide

end Verif.Vars
