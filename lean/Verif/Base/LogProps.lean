import Verif.Base.LogSpec
import Mathlib.Data.List.Basic

/-!
# C56: announcements are indented by nesting, on lines of their own, on the root only
-/

namespace Verif.Log

open Spec

theorem run_append (rank : Nat) (s : State) (a b : List Op) :
    run rank s (a ++ b) = (run rank s a).bind (fun s' => run rank s' b) := by
  induction a generalizing s with
  | nil => rfl
  | cons o os ih =>
    rw [List.cons_append, run, run]
    cases step rank s o with
    | none => rfl
    | some s' => exact ih s'

theorem fresh_fields (s : State) : (freshLine s).level = s.level ∧
    (freshLine s).verbosity = s.verbosity ∧ (freshLine s).onlyRoot = s.onlyRoot ∧
    (freshLine s).dangling = false := by
  unfold freshLine put
  by_cases h : s.dangling = true <;> simp [h]

theorem say_fields (s s' : State) (t : Option Text) (h : say s t = some s') :
    s'.level = s.level ∧ s'.verbosity = s.verbosity ∧ s'.onlyRoot = s.onlyRoot ∧
    s'.dangling = false := by
  have f := fresh_fields s
  cases t with
  | none => simp only [say, Option.some.injEq] at h; subst h; exact f
  | some t =>
    simp only [say] at h
    by_cases hl : t.length ≥ 1024
    · rw [if_pos hl] at h; simp at h
    · rw [if_neg hl, Option.some.injEq] at h; subst h; exact f

theorem banner_fields (rank : Nat) (s : State) (t : Option Text) :
    (bannerOp rank s t).level = s.level ∧ (bannerOp rank s t).verbosity = s.verbosity ∧
    (bannerOp rank s t).onlyRoot = s.onlyRoot := by
  have f := fresh_fields s
  unfold bannerOp
  by_cases h : silent rank s = true
  · rw [if_pos h]; exact ⟨rfl, rfl, rfl⟩
  · rw [if_neg h]
    cases t with
    | none => exact ⟨f.1, f.2.1, f.2.2.1⟩
    | some t =>
      simp only
      by_cases hl : t.length + 2 > 58
      · rw [if_pos hl]; exact ⟨f.1, f.2.1, f.2.2.1⟩
      · rw [if_neg hl]; exact ⟨f.1, f.2.1, f.2.2.1⟩

theorem start_fields (rank : Nat) (s : State) (t : Option Text) :
    (start rank s t).level = (if s.level = 16 then s.level else if silent rank s then s.level else s.level + 1) ∧
    (start rank s t).verbosity = s.verbosity ∧ (start rank s t).onlyRoot = s.onlyRoot := by
  unfold start
  by_cases h : s.level = 16
  · rw [if_pos h, if_pos h]; exact ⟨rfl, rfl, rfl⟩
  · rw [if_neg h, if_neg h]
    by_cases h2 : silent rank s = true
    · rw [if_pos h2, if_pos h2]; exact ⟨rfl, rfl, rfl⟩
    · rw [if_neg h2, if_neg h2]
      cases t <;> by_cases hd : s.dangling = true <;> simp [hd, put]

theorem stop_fields (rank : Nat) (s s' : State) (t : Option Text) (h : stop rank s t = some s') :
    s'.level = (if silent rank s then s.level else s.level - 1) ∧
    s'.verbosity = s.verbosity ∧ s'.onlyRoot = s.onlyRoot := by
  unfold stop at h
  by_cases h0 : s.level = 0
  · rw [if_pos h0, Option.some.injEq] at h; subst h
    refine ⟨?_, rfl, rfl⟩
    split <;> omega
  · rw [if_neg h0] at h
    by_cases h2 : silent rank s = true
    · rw [if_pos h2, Option.some.injEq] at h; subst h; rw [if_pos h2]; exact ⟨rfl, rfl, rfl⟩
    · rw [if_neg h2] at h
      rw [if_neg h2]
      cases t with
      | none => simp only [Option.some.injEq] at h; subst h; exact ⟨rfl, rfl, rfl⟩
      | some t =>
        simp only at h
        by_cases hd : s.dangling = true
        · rw [if_pos hd, Option.some.injEq] at h; subst h; exact ⟨rfl, rfl, rfl⟩
        · rw [if_neg hd] at h
          by_cases hp : t.contains '%' = true
          · rw [if_pos hp] at h; simp at h
          · rw [if_neg hp] at h
            cases hs : say s (some t) with
            | none => rw [hs] at h; simp at h
            | some s2 =>
              rw [hs, Option.map_some, Option.some.injEq] at h
              subst h
              have := say_fields s s2 _ hs
              exact ⟨by simp [this.1], this.2.1, this.2.2.1⟩

/-- The indentation never leaves the range 0 to 16, whatever calls are made, in
whatever order, on any rank. -/
theorem C56_bounds (rank : Nat) (ops : List Op) (s : State) (h : run rank init ops = some s) :
    s.level ≤ 16 := by
  have key : ∀ (ops : List Op) (a s : State), a.level ≤ 16 → run rank a ops = some s → s.level ≤ 16 := by
    intro ops
    induction ops with
    | nil => intro a s ha h; simp only [run, Option.some.injEq] at h; subst h; exact ha
    | cons o os ih =>
      intro a s ha h
      rw [run] at h
      cases hs : step rank a o with
      | none => rw [hs] at h; simp at h
      | some b =>
        rw [hs, Option.bind_some] at h
        refine ih b s ?_ h
        have hstart : ∀ t, (start rank a t).level ≤ 16 := by
          intro t
          rw [(start_fields rank a t).1]
          by_cases h16 : a.level = 16
          · rw [if_pos h16]; omega
          · rw [if_neg h16]
            by_cases hsil : silent rank a = true
            · rw [if_pos hsil]; omega
            · rw [if_neg hsil]; omega
        have hstop : ∀ t b, stop rank a t = some b → b.level ≤ 16 := by
          intro t b hb
          rw [(stop_fields rank a b t hb).1]
          by_cases hsil : silent rank a = true
          · rw [if_pos hsil]; omega
          · rw [if_neg hsil]; omega
        have hsay : ∀ t b, say a t = some b → b.level ≤ 16 := by
          intro t b hb
          rw [(say_fields a b t hb).1]; exact ha
        cases o with
        | startBlock t => simp only [step, Option.some.injEq] at hs; subst hs; exact hstart t
        | startBlockAt v t =>
          simp only [step] at hs
          by_cases hv : v > a.verbosity
          · rw [if_pos hv, Option.some.injEq] at hs; subst hs; exact ha
          · rw [if_neg hv, Option.some.injEq] at hs; subst hs; exact hstart t
        | endBlock t => exact hstop t b hs
        | endBlockAt v t =>
          simp only [step] at hs
          by_cases hv : v > a.verbosity
          · rw [if_pos hv, Option.some.injEq] at hs; subst hs; exact ha
          · rw [if_neg hv] at hs; exact hstop t b hs
        | announce t =>
          simp only [step] at hs
          by_cases hsil : silent rank a = true
          · rw [if_pos hsil, Option.some.injEq] at hs; subst hs; exact ha
          · rw [if_neg hsil] at hs; exact hsay t b hs
        | announceAt v t =>
          simp only [step] at hs
          by_cases hsil : silent rank a = true
          · rw [if_pos hsil, Option.some.injEq] at hs; subst hs; exact ha
          · rw [if_neg hsil] at hs
            by_cases hv : v > a.verbosity
            · rw [if_pos hv, Option.some.injEq] at hs; subst hs; exact ha
            · rw [if_neg hv] at hs; exact hsay t b hs
        | banner t =>
          simp only [step, Option.some.injEq] at hs
          subst hs
          rw [(banner_fields rank a t).1]; exact ha
        | setVerbosity v => simp only [step, Option.some.injEq] at hs; subst hs; exact ha
        | onlyRankZero => simp only [step, Option.some.injEq] at hs; subst hs; exact ha
        | allRanks => simp only [step, Option.some.injEq] at hs; subst hs; exact ha
  exact key ops init s (by decide) h

theorem silent_eq (rank : Nat) (a b : State) (h : b.onlyRoot = a.onlyRoot) :
    silent rank b = silent rank a := by
  unfold silent; rw [h]

/-- Properly nested calls leave the indentation (and the settings) as they found it,
as long as the nesting does not go deeper than 16 levels. -/
theorem C56_nested_partial (rank : Nat) (d : Nat) (ops : List Op) (hn : Nested d ops) (a s : State)
    (ha : a.level + d ≤ 16) (h : run rank a ops = some s) :
    s.level = a.level ∧ s.verbosity = a.verbosity ∧ s.onlyRoot = a.onlyRoot := by
  induction hn generalizing a s with
  | nil d => simp only [run, Option.some.injEq] at h; subst h; exact ⟨rfl, rfl, rfl⟩
  | announce d t ops _ ih =>
    rw [run] at h
    cases hs : step rank a (.announce t) with
    | none => rw [hs] at h; simp at h
    | some b =>
      rw [hs, Option.bind_some] at h
      have hb : b.level = a.level ∧ b.verbosity = a.verbosity ∧ b.onlyRoot = a.onlyRoot := by
        simp only [step] at hs
        by_cases hsil : silent rank a = true
        · rw [if_pos hsil, Option.some.injEq] at hs; subst hs; exact ⟨rfl, rfl, rfl⟩
        · rw [if_neg hsil] at hs
          have := say_fields a b t hs
          exact ⟨this.1, this.2.1, this.2.2.1⟩
      obtain ⟨h1, h2, h3⟩ := ih b s (by omega) h
      exact ⟨h1.trans hb.1, h2.trans hb.2.1, h3.trans hb.2.2⟩
  | announceAt d v t ops _ ih =>
    rw [run] at h
    cases hs : step rank a (.announceAt v t) with
    | none => rw [hs] at h; simp at h
    | some b =>
      rw [hs, Option.bind_some] at h
      have hb : b.level = a.level ∧ b.verbosity = a.verbosity ∧ b.onlyRoot = a.onlyRoot := by
        simp only [step] at hs
        by_cases hsil : silent rank a = true
        · rw [if_pos hsil, Option.some.injEq] at hs; subst hs; exact ⟨rfl, rfl, rfl⟩
        · rw [if_neg hsil] at hs
          by_cases hv : v > a.verbosity
          · rw [if_pos hv, Option.some.injEq] at hs; subst hs; exact ⟨rfl, rfl, rfl⟩
          · rw [if_neg hv] at hs
            have := say_fields a b t hs
            exact ⟨this.1, this.2.1, this.2.2.1⟩
      obtain ⟨h1, h2, h3⟩ := ih b s (by omega) h
      exact ⟨h1.trans hb.1, h2.trans hb.2.1, h3.trans hb.2.2⟩
  | banner d t ops _ ih =>
    rw [run] at h
    simp only [step, Option.bind_some] at h
    have hb := banner_fields rank a t
    obtain ⟨h1, h2, h3⟩ := ih _ s (by rw [hb.1]; exact ha) h
    exact ⟨h1.trans hb.1, h2.trans hb.2.1, h3.trans hb.2.2⟩
  | block d t u body ops _ _ ih1 ih2 =>
    rw [run] at h
    simp only [step, Option.bind_some] at h
    rw [run_append] at h
    have hb := start_fields rank a t
    rw [if_neg (by omega)] at hb
    cases hc : run rank (start rank a t) body with
    | none => rw [hc] at h; simp at h
    | some c =>
      rw [hc, Option.bind_some, run] at h
      have hcl := ih1 (start rank a t) c (by rw [hb.1]; split <;> omega) hc
      cases he : step rank c (.endBlock u) with
      | none => rw [he] at h; simp at h
      | some e =>
        rw [he, Option.bind_some] at h
        have hef := stop_fields rank c e u he
        rw [silent_eq rank a c (hcl.2.2.trans hb.2.2)] at hef
        have hel : e.level = a.level := by
          rw [hef.1, hcl.1, hb.1]
          by_cases hsil : silent rank a = true <;> simp [hsil]
        obtain ⟨h1, h2, h3⟩ := ih2 e s (by omega) h
        exact ⟨h1.trans hel, h2.trans (hef.2.1.trans (hcl.2.1.trans hb.2.1)),
          h3.trans (hef.2.2.trans (hcl.2.2.trans hb.2.2))⟩
  | blockAt d v t u body ops _ _ ih1 ih2 =>
    rw [run] at h
    by_cases hv : v > a.verbosity
    · simp only [step] at h
      rw [if_pos hv, Option.bind_some, run_append] at h
      cases hc : run rank a body with
      | none => rw [hc] at h; simp at h
      | some c =>
        rw [hc, Option.bind_some, run] at h
        have hcl := ih1 a c (by omega) hc
        simp only [step] at h
        rw [if_pos (by rw [hcl.2.1]; exact hv), Option.bind_some] at h
        obtain ⟨h1, h2, h3⟩ := ih2 c s (by rw [hcl.1]; exact ha) h
        exact ⟨h1.trans hcl.1, h2.trans hcl.2.1, h3.trans hcl.2.2⟩
    · simp only [step] at h
      rw [if_neg hv, Option.bind_some, run_append] at h
      have hb := start_fields rank a t
      rw [if_neg (by omega)] at hb
      cases hc : run rank (start rank a t) body with
      | none => rw [hc] at h; simp at h
      | some c =>
        rw [hc, Option.bind_some, run] at h
        have hcl := ih1 (start rank a t) c (by rw [hb.1]; split <;> omega) hc
        simp only [step] at h
        rw [if_neg (by rw [hcl.2.1, hb.2.1]; exact hv)] at h
        cases he : stop rank c u with
        | none => rw [he] at h; simp at h
        | some e =>
          rw [he, Option.bind_some] at h
          have hef := stop_fields rank c e u he
          rw [silent_eq rank a c (hcl.2.2.trans hb.2.2)] at hef
          have hel : e.level = a.level := by
            rw [hef.1, hcl.1, hb.1]
            by_cases hsil : silent rank a = true <;> simp [hsil]
          obtain ⟨h1, h2, h3⟩ := ih2 e s (by omega) h
          exact ⟨h1.trans hel, h2.trans (hef.2.1.trans (hcl.2.1.trans hb.2.1)),
            h3.trans (hef.2.2.trans (hcl.2.2.trans hb.2.2))⟩

/-- Without the bound on the nesting this fails: a block started at the deepest level is
ignored, but ending it is not, so the indentation comes back one level short. -/
theorem C56_false_deep : ∃ a s : State, a.level = 16 ∧ a.dangling = false ∧
    run 0 a [.startBlock (some ['x']), .endBlock none] = some s ∧ s.level = 15 :=
  ⟨⟨0, false, 16, false, []⟩, ⟨0, false, 15, false, []⟩, rfl, rfl, rfl, rfl⟩

/-- When output is restricted to rank zero, calls made on any other rank write nothing
and change nothing. -/
theorem C56_root_only (rank : Nat) (hr : 0 < rank) (a : State) (ha : a.onlyRoot = true)
    (ops : List Op) (hops : ∀ o ∈ ops, o ≠ .allRanks) :
    ∃ s, run rank a ops = some s ∧ s.log = a.log ∧ s.level = a.level ∧ s.dangling = a.dangling := by
  induction ops generalizing a with
  | nil => exact ⟨a, rfl, rfl, rfl, rfl⟩
  | cons o os ih =>
    have hs : silent rank a = true := by simp [silent, ha, hr]
    have hstart : ∀ t, start rank a t = a := by
      intro t
      unfold start
      by_cases h : a.level = 16
      · rw [if_pos h]
      · rw [if_neg h, if_pos hs]
    have hstop : ∀ t, stop rank a t = some a := by
      intro t
      unfold stop
      by_cases h : a.level = 0
      · rw [if_pos h]
      · rw [if_neg h, if_pos hs]
    have hb : ∃ b, step rank a o = some b ∧ b.log = a.log ∧ b.level = a.level ∧
        b.dangling = a.dangling ∧ b.onlyRoot = true := by
      have self : a.log = a.log ∧ a.level = a.level ∧ a.dangling = a.dangling ∧ a.onlyRoot = true :=
        ⟨rfl, rfl, rfl, ha⟩
      cases o with
      | startBlock t => exact ⟨a, by rw [step, hstart], self⟩
      | startBlockAt v t => exact ⟨a, by rw [step, hstart]; simp, self⟩
      | endBlock t => exact ⟨a, by rw [step, hstop], self⟩
      | endBlockAt v t => exact ⟨a, by rw [step, hstop]; simp, self⟩
      | announce t => exact ⟨a, by rw [step, if_pos hs], self⟩
      | announceAt v t => exact ⟨a, by rw [step, if_pos hs], self⟩
      | banner t => exact ⟨a, by rw [step, bannerOp, if_pos hs], self⟩
      | setVerbosity v => exact ⟨_, rfl, rfl, rfl, rfl, ha⟩
      | onlyRankZero => exact ⟨_, rfl, rfl, rfl, rfl, rfl⟩
      | allRanks => exact absurd rfl (hops .allRanks (by simp))
    obtain ⟨b, h1, h2, h3, h4, h5⟩ := hb
    obtain ⟨s, g1, g2, g3, g4⟩ := ih b h5 (fun o' ho' => hops o' (by simp [ho']))
    refine ⟨s, ?_, g2.trans h2, g3.trans h3, g4.trans h4⟩
    rw [run, h1, Option.bind_some, g1]

/-- A message above the verbosity level has no effect at all; one at or below it does
exactly what the unconditional call does. -/
theorem C56_verbosity (rank : Nat) (a : State) (v : Int) (t : Option Text) :
    (v > a.verbosity → step rank a (.announceAt v t) = some a ∧
      step rank a (.startBlockAt v t) = some a ∧ step rank a (.endBlockAt v t) = some a) ∧
    (v ≤ a.verbosity → step rank a (.announceAt v t) = step rank a (.announce t) ∧
      step rank a (.startBlockAt v t) = step rank a (.startBlock t) ∧
      step rank a (.endBlockAt v t) = step rank a (.endBlock t)) := by
  constructor
  · intro hv
    refine ⟨?_, ?_, ?_⟩
    · rw [step]
      by_cases hs : silent rank a = true
      · rw [if_pos hs]
      · rw [if_neg hs, if_pos hv]
    · rw [step, if_pos hv]
    · rw [step, if_pos hv]
  · intro hv
    refine ⟨?_, ?_, ?_⟩
    · rw [step, step]
      by_cases hs : silent rank a = true
      · rw [if_pos hs, if_pos hs]
      · rw [if_neg hs, if_neg hs, if_neg (by omega)]
    · rw [step, step, if_neg (by omega)]
    · rw [step, step, if_neg (by omega)]

theorem shown_put (s : State) (t : Text) : shown (put s t) = shown s ++ t ∧ buffered (put s t) = buffered s ++ t := by
  simp [shown, buffered, put]

theorem shown_console (s : State) (t : Text) :
    shown (console s t) = shown s ++ t ∧ buffered (console s t) = buffered s := by
  simp [shown, buffered, console]

/-- No start is dangling means the cursor is at the beginning of a line, both on the
screen and in the output buffer. -/
def Inv (s : State) : Prop :=
  s.dangling = false → AtLineStart (shown s) ∧ AtLineStart (buffered s)

theorem fresh_inv (s : State) (h : Inv s) :
    AtLineStart (shown (freshLine s)) ∧ AtLineStart (buffered (freshLine s)) := by
  unfold freshLine
  by_cases hd : s.dangling = true
  · rw [if_pos hd]
    constructor
    · right
      show (shown (put s ['\n'])).getLast? = some '\n'
      rw [(shown_put _ _).1]; simp
    · right
      show (buffered (put s ['\n'])).getLast? = some '\n'
      rw [(shown_put _ _).2]; simp
  · rw [if_neg hd]
    exact h (by simpa using hd)

theorem inv_of_newline (s : State) (t : Text) : AtLineStart (shown (put s (t ++ ['\n']))) ∧
    AtLineStart (buffered (put s (t ++ ['\n']))) := by
  constructor
  · right; rw [(shown_put _ _).1]; simp
  · right; rw [(shown_put _ _).2]; simp

theorem say_inv (s s' : State) (t : Option Text) (h : Inv s) (hs : say s t = some s') : Inv s' := by
  intro _
  cases t with
  | none =>
    simp only [say, Option.some.injEq] at hs
    subst hs
    exact fresh_inv s h
  | some t =>
    simp only [say] at hs
    by_cases hl : t.length ≥ 1024
    · rw [if_pos hl] at hs; simp at hs
    · rw [if_neg hl, Option.some.injEq] at hs
      subst hs
      exact inv_of_newline _ _

theorem start_inv (rank : Nat) (s : State) (t : Text) (h : Inv s) : Inv (start rank s (some t)) := by
  unfold start
  by_cases h1 : s.level = 16
  · rw [if_pos h1]; exact h
  · rw [if_neg h1]
    by_cases h2 : silent rank s = true
    · rw [if_pos h2]; exact h
    · rw [if_neg h2]
      intro hd
      simp at hd

theorem stop_inv (rank : Nat) (s s' : State) (t : Option Text) (h : Inv s) (hs : stop rank s t = some s') :
    Inv s' := by
  unfold stop at hs
  by_cases h0 : s.level = 0
  · rw [if_pos h0, Option.some.injEq] at hs; subst hs; exact h
  · rw [if_neg h0] at hs
    by_cases h2 : silent rank s = true
    · rw [if_pos h2, Option.some.injEq] at hs; subst hs; exact h
    · rw [if_neg h2] at hs
      cases t with
      | none =>
        simp only [Option.some.injEq] at hs
        subst hs
        intro hd
        exact h hd
      | some t =>
        simp only at hs
        by_cases hd : s.dangling = true
        · rw [if_pos hd, Option.some.injEq] at hs
          subst hs
          intro _
          exact inv_of_newline s ('.' :: '.' :: ' ' :: t)
        · rw [if_neg hd] at hs
          by_cases hp : t.contains '%' = true
          · rw [if_pos hp] at hs; simp at hs
          · rw [if_neg hp] at hs
            cases hsay : say s (some t) with
            | none => rw [hsay] at hs; simp at hs
            | some s2 =>
              rw [hsay, Option.map_some, Option.some.injEq] at hs
              subst hs
              exact say_inv s s2 _ h hsay

theorem banner_inv (rank : Nat) (s : State) (t : Option Text) (h : Inv s) : Inv (bannerOp rank s t) := by
  unfold bannerOp
  by_cases h2 : silent rank s = true
  · rw [if_pos h2]; exact h
  · rw [if_neg h2]
    intro _
    cases t with
    | none => exact inv_of_newline _ []
    | some t =>
      simp only
      by_cases hl : t.length + 2 > 58
      · rw [if_pos hl]; exact inv_of_newline _ _
      · rw [if_neg hl]; exact inv_of_newline _ _

theorem run_inv (rank : Nat) (ops : List Op) (a s : State) (ha : Inv a)
    (ht : ∀ o ∈ ops, Texted o) (h : run rank a ops = some s) : Inv s := by
  induction ops generalizing a with
  | nil => simp only [run, Option.some.injEq] at h; subst h; exact ha
  | cons o os ih =>
    rw [run] at h
    have hto := ht o (by simp)
    cases hs : step rank a o with
    | none => rw [hs] at h; simp at h
    | some b =>
      rw [hs, Option.bind_some] at h
      refine ih b ?_ (fun o' ho' => ht o' (by simp [ho'])) h
      cases o with
      | startBlock t =>
        simp only [step, Option.some.injEq] at hs; subst hs
        cases t with
        | none => exact absurd hto (by simp [Texted])
        | some t => exact start_inv rank a t ha
      | startBlockAt v t =>
        simp only [step] at hs
        by_cases hv : v > a.verbosity
        · rw [if_pos hv, Option.some.injEq] at hs; subst hs; exact ha
        · rw [if_neg hv, Option.some.injEq] at hs; subst hs
          cases t with
          | none => exact absurd hto (by simp [Texted])
          | some t => exact start_inv rank a t ha
      | endBlock t => exact stop_inv rank a b t ha hs
      | endBlockAt v t =>
        simp only [step] at hs
        by_cases hv : v > a.verbosity
        · rw [if_pos hv, Option.some.injEq] at hs; subst hs; exact ha
        · rw [if_neg hv] at hs; exact stop_inv rank a b t ha hs
      | announce t =>
        simp only [step] at hs
        by_cases hsil : silent rank a = true
        · rw [if_pos hsil, Option.some.injEq] at hs; subst hs; exact ha
        · rw [if_neg hsil] at hs; exact say_inv a b t ha hs
      | announceAt v t =>
        simp only [step] at hs
        by_cases hsil : silent rank a = true
        · rw [if_pos hsil, Option.some.injEq] at hs; subst hs; exact ha
        · rw [if_neg hsil] at hs
          by_cases hv : v > a.verbosity
          · rw [if_pos hv, Option.some.injEq] at hs; subst hs; exact ha
          · rw [if_neg hv] at hs; exact say_inv a b t ha hs
      | banner t =>
        simp only [step, Option.some.injEq] at hs; subst hs; exact banner_inv rank a t ha
      | setVerbosity v => simp only [step, Option.some.injEq] at hs; subst hs; exact ha
      | onlyRankZero => simp only [step, Option.some.injEq] at hs; subst hs; exact ha
      | allRanks => simp only [step, Option.some.injEq] at hs; subst hs; exact ha

/-- After any calls in which every block started has a text, a message appears on a
line of its own: what is shown before it ends at a line boundary (a newline is added
if a start is still dangling), and it adds two dots for each level of indentation,
the text, and a newline.  The same holds of what reaches the output buffer. -/
theorem C56_message (rank : Nat) (ops : List Op) (ht : ∀ o ∈ ops, Texted o) (a b : State)
    (ha : run rank init ops = some a) (hs : ¬ (a.onlyRoot = true ∧ 0 < rank)) (text : Text)
    (hb : step rank a (.announce (some text)) = some b) :
    ∃ p q : Text, (p = [] ∨ p = ['\n']) ∧ AtLineStart (shown a ++ p) ∧
      shown b = shown a ++ p ++ List.replicate (2 * a.level) '.' ++ text ++ ['\n'] ∧
      (q = [] ∨ q = ['\n']) ∧ AtLineStart (buffered a ++ q) ∧
      buffered b = buffered a ++ q ++ List.replicate (2 * a.level) '.' ++ text ++ ['\n'] ∧
      b.dangling = false := by
  have hi : Inv a := run_inv rank ops init a (by intro _; exact ⟨Or.inl rfl, Or.inl rfl⟩) ht ha
  have hsil : ¬ silent rank a = true := by
    simp only [silent, Bool.and_eq_true, decide_eq_true_eq]
    exact hs
  simp only [step] at hb
  rw [if_neg hsil, say] at hb
  by_cases hl : text.length ≥ 1024
  · rw [if_pos hl] at hb; simp at hb
  · rw [if_neg hl, Option.some.injEq] at hb
    subst hb
    have fi := fresh_inv a hi
    have fd := (fresh_fields a).2.2.2
    by_cases hd : a.dangling = true
    · have es : shown (freshLine a) = shown a ++ ['\n'] ∧ buffered (freshLine a) = buffered a ++ ['\n'] := by
        rw [freshLine, if_pos hd]
        exact shown_put a ['\n']
      refine ⟨['\n'], ['\n'], Or.inr rfl, es.1 ▸ fi.1, ?_, Or.inr rfl, es.2 ▸ fi.2, ?_, fd⟩
      · rw [(shown_put _ _).1, es.1]; simp [dots]
      · rw [(shown_put _ _).2, es.2]; simp [dots]
    · have es : freshLine a = a := by rw [freshLine, if_neg hd]
      rw [es] at fi
      refine ⟨[], [], Or.inl rfl, by rw [List.append_nil]; exact fi.1, ?_, Or.inl rfl,
        by rw [List.append_nil]; exact fi.2, ?_, fd⟩
      · rw [(shown_put _ _).1, es]; simp [dots]
      · rw [(shown_put _ _).2, es]; simp [dots]

/-- On the console a banner is one line of exactly sixty characters if its text fits,
and contains its text in full otherwise. -/
theorem C56_banner (rank : Nat) (a : State) (hs : ¬ (a.onlyRoot = true ∧ 0 < rank))
    (hd : a.dangling = false) (text : Option Text) :
    ∃ l : Text, shown (bannerOp rank a text) = shown a ++ l ++ ['\n'] ∧
      (∀ t, text = some t → t <:+: l) ∧
      ((text = none ∨ ∃ t, text = some t ∧ t.length ≤ 56) → l.length = 60) := by
  have hsil : ¬ silent rank a = true := by
    simp only [silent, Bool.and_eq_true, decide_eq_true_eq]
    exact hs
  have ef : freshLine a = a := by rw [freshLine, if_neg (by simp [hd])]
  unfold bannerOp
  rw [if_neg hsil, ef]
  cases text with
  | none =>
    refine ⟨List.replicate 60 '-', ?_, by simp, by simp⟩
    simp only
    rw [(shown_put _ _).1, (shown_console _ _).1]
  | some t =>
    simp only
    by_cases hl : t.length + 2 > 58
    · rw [if_pos hl]
      refine ⟨['-', '-'] ++ t ++ ['-', '-'], ?_, ?_, ?_⟩
      · rw [(shown_put _ _).1, (shown_console _ _).1]; simp
      · intro u hu
        simp only [Option.some.injEq] at hu
        subst hu
        exact ⟨['-', '-'], ['-', '-'], rfl⟩
      · rintro (h | ⟨u, hu, hlen⟩)
        · simp at h
        · simp only [Option.some.injEq] at hu
          subst hu
          omega
    · rw [if_neg hl]
      refine ⟨['-', '-', ' '] ++ t ++ (' ' :: List.replicate (60 - (t.length + 2) - 2) '-'), ?_, ?_, ?_⟩
      · rw [(shown_put _ _).1, (shown_console _ _).1]; simp
      · intro u hu
        simp only [Option.some.injEq] at hu
        subst hu
        exact ⟨_, _, rfl⟩
      · intro _
        simp
        omega

/-- When output has been redirected, part of a banner still goes to the console: the
output buffer does not receive the line of dashes. -/
theorem C56_false_redirect (rank : Nat) (a : State) (hs : ¬ (a.onlyRoot = true ∧ 0 < rank))
    (hd : a.dangling = false) :
    buffered (bannerOp rank a none) = buffered a ++ ['\n'] := by
  have hsil : ¬ silent rank a = true := by
    simp only [silent, Bool.and_eq_true, decide_eq_true_eq]
    exact hs
  have ef : freshLine a = a := by rw [freshLine, if_neg (by simp [hd])]
  unfold bannerOp
  rw [if_neg hsil, ef]
  simp only
  rw [(shown_put _ _).2, (shown_console _ _).2]

/-! ## The hypotheses are met -/

/-- A typical sequence: a block with a message inside it, ended. -/
def demo : List Op :=
  [.startBlock (some "Setup".toList), .announce (some "grid".toList),
   .startBlock (some "Patches".toList), .endBlock (some "Done".toList), .endBlock none]

example : Nested 2 demo :=
  Nested.block 1 _ none [.announce (some "grid".toList), .startBlock (some "Patches".toList),
      .endBlock (some "Done".toList)] []
    (Nested.announce _ _ _ (Nested.block 0 _ _ [] [] (Nested.nil _) (Nested.nil _))) (Nested.nil _)

example : ∃ s, run 0 init demo = some s ∧
    shown s = "Setup\n..grid\n..Patches.. Done\n".toList := by
  refine ⟨_, rfl, ?_⟩
  decide

end Verif.Log
