import Verif.Base.Cli
import Verif.Base.CliSpec
import Verif.Time.StringLemmas
import Mathlib.Data.List.Nodup

/-!
# C55: options on the command line do what they say
-/

namespace Verif.Cli

open Spec (Setting Writable commandLine last written)

theorem looks_false (t : Text) (h : ∀ c r, t ≠ '-' :: '-' :: c :: r) : looksLikeOption t = false := by
  unfold looksLikeOption
  split
  · rename_i c r; exact absurd rfl (h _ _)
  · rfl

theorem inner_skip (ps : List Param) (i : Nat) (cur : Text) (rest : List Text) (found : Bool)
    (st : Store) (h : ∀ p ∈ ps, p.full ≠ cur) :
    inner ps i cur rest found st = .done found rest st := by
  induction ps generalizing i with
  | nil => rfl
  | cons p ps ih =>
    unfold inner; rw [if_neg (h p (by simp))]
    exact ih _ (fun q hq => h q (by simp [hq]))

theorem full_ne_value (p : Param) (hn : p.name ≠ []) (t : Text) (h : ∀ c r, t ≠ '-' :: '-' :: c :: r) :
    p.full ≠ t := by
  obtain ⟨c, r, e⟩ := List.exists_cons_of_ne_nil hn
  intro e2
  exact h c r (by rw [← e2, Param.full, e])

/-- Names are distinct and not empty. -/
structure Declared (ps : List Param) : Prop where
  distinct : (ps.map (fun p => p.name)).Nodup
  named : ∀ p ∈ ps, p.name ≠ []

theorem full_inj {p q : Param} (h : p.full = q.full) : p.name = q.name := by
  simpa [Param.full] using h

theorem inner_hit (ps : List Param) (h : Declared ps) (k : Nat) (p : Param) (hp : ps[k]? = some p)
    (i : Nat) (rest : List Text) (found : Bool) (st : Store) :
    inner ps i p.full rest found st =
      match p.kind with
      | .switch => .done true rest (st.set (i + k) (some []))
      | .value =>
        match rest with
        | [] => .error st
        | v :: r => if looksLikeOption v then .error st
          else .done true r (st.set (i + k) (some v)) := by
  induction ps generalizing k i with
  | nil => simp at hp
  | cons q qs ih =>
    have hq : Declared qs := ⟨by
      have := h.distinct
      rw [List.map_cons, List.nodup_cons] at this
      exact this.2, fun r hr => h.named r (by simp [hr])⟩
    cases k with
    | zero =>
      simp only [List.getElem?_cons_zero, Option.some.injEq] at hp
      subst hp
      have other : ∀ r ∈ qs, r.full ≠ q.full := by
        intro r hr e
        have := h.distinct
        rw [List.map_cons, List.nodup_cons] at this
        exact this.1 (List.mem_map.mpr ⟨r, hr, full_inj e⟩)
      unfold inner; rw [if_pos rfl]
      cases hk : q.kind with
      | switch =>
        simp only
        rw [inner_skip qs _ _ _ _ _ other]; rfl
      | value =>
        simp only
        cases rest with
        | nil => rfl
        | cons v r =>
          simp only
          by_cases hv : looksLikeOption v = true
          · rw [if_pos hv, if_pos hv]
          · rw [if_neg hv, if_neg hv]
            rw [inner_skip qs _ _ _ _ _ (fun r' hr' => full_ne_value r' (hq.named r' hr') v (by
              intro c l e; subst e; exact hv rfl))]
            rfl
    | succ k =>
      simp only [List.getElem?_cons_succ] at hp
      have hne : q.full ≠ p.full := by
        intro e
        have := h.distinct
        rw [List.map_cons, List.nodup_cons] at this
        exact this.1 (List.mem_map.mpr ⟨p, List.mem_of_getElem? hp, (full_inj e).symm⟩)
      unfold inner; rw [if_neg hne, ih hq k hp (i + 1)]
      have : i + 1 + k = i + (k + 1) := by omega
      rw [this]

/-- The store after a list of settings. -/
def applied (ss : List Setting) (st : Store) : Store :=
  ss.foldl (fun s x => s.set x.position (some x.text)) st

theorem outer_settings (strict : Bool) (ps : List Param) (h : Declared ps) (ss : List Setting)
    (hw : ∀ s ∈ ss, Writable ps s) (more : List Text) (st : Store) (w : Nat) :
    outer strict ps (commandLine ps ss ++ more) st w = outer strict ps more (applied ss st) w := by
  induction ss generalizing st with
  | nil => rfl
  | cons s ss ih =>
    obtain ⟨p, hp, hsw, hval⟩ := hw s (by simp)
    have ih := ih (fun x hx => hw x (by simp [hx]))
    have e : commandLine ps (s :: ss) ++ more = written ps s ++ (commandLine ps ss ++ more) := by
      simp [commandLine]
    rw [e]
    have hx := inner_hit ps h s.position p hp 0
    rw [Nat.zero_add] at hx
    cases hk : p.kind with
    | switch =>
      have ew : written ps s = [p.full] := by simp [written, hp, hk, Param.full]
      rw [ew, List.singleton_append, outer]
      have hx' := hx (commandLine ps ss ++ more) false st
      simp only [hk] at hx'
      split
      · rename_i heq; rw [hx'] at heq; simp at heq
      · rename_i heq
        rw [hx'] at heq
        simp only [Inner.done.injEq, true_and] at heq
        rw [← heq.1, ← heq.2, ih]
        simp [applied, hsw hk]
      · rename_i heq; rw [hx'] at heq; simp at heq
    | value =>
      have ew : written ps s = [p.full, s.text] := by simp [written, hp, hk, Param.full]
      rw [ew, List.cons_append, List.singleton_append, outer]
      have hx' := hx (s.text :: (commandLine ps ss ++ more)) false st
      simp only [hk] at hx'
      rw [if_neg (by rw [looks_false s.text (hval hk)]; simp)] at hx'
      split
      · rename_i heq; rw [hx'] at heq; simp at heq
      · rename_i heq
        rw [hx'] at heq
        simp only [Inner.done.injEq, true_and] at heq
        rw [← heq.1, ← heq.2, ih]
        simp [applied]
      · rename_i heq; rw [hx'] at heq; simp at heq

theorem applied_get (ss : List Setting) (st : Store) (i : Nat) (hi : i < st.length) :
    (applied ss st)[i]? = some (match last i ss with
      | some t => some t
      | none => st[i]) := by
  induction ss generalizing st with
  | nil => simp [applied, last, hi]
  | cons s ss ih =>
    have := ih (st.set s.position (some s.text)) (by simpa using hi)
    rw [applied, List.foldl_cons, ← applied, this, last]
    cases last i ss with
    | some t => rfl
    | none =>
      simp only
      by_cases e : s.position = i
      · subst e; simp
      · rw [if_neg e]; simp [List.getElem_set_ne e]

theorem applied_length (ss : List Setting) (st : Store) : (applied ss st).length = st.length := by
  induction ss generalizing st with
  | nil => rfl
  | cons s ss ih => rw [applied, List.foldl_cons, ← applied, ih]; simp

/-- A parameter's entry after parsing. -/
def given (st : Store) (i : Nat) : Option Text := (st[i]?).getD none

theorem given_applied (ss : List Setting) (n i : Nat) (hi : i < n) :
    given (applied ss (List.replicate n none)) i = last i ss := by
  unfold given
  rw [applied_get ss _ i (by simpa using hi)]
  simp only [List.getElem_replicate, Option.getD_some]
  cases last i ss <;> rfl

/-- With distinct names, a command line that spells out any list of settings raises no
error, reports nothing, and leaves every parameter with the last text it was given,
or with its default if it was not mentioned.  Both versions of the parser. -/
theorem C55_set (strict : Bool) (ps : List Param) (h : Declared ps) (ss : List Setting)
    (hw : ∀ s ∈ ss, Writable ps s) :
    ∃ st, parse strict ps (commandLine ps ss) = (st, false, 0) ∧ st.length = ps.length ∧
      ∀ i < ps.length, given st i = last i ss := by
  refine ⟨applied ss (List.replicate ps.length none), ?_, ?_, ?_⟩
  · unfold parse
    have := outer_settings strict ps h ss hw [] (List.replicate ps.length none) 0
    rw [List.append_nil] at this
    rw [this]
    unfold outer
    rfl
  · rw [applied_length]; simp
  · intro i hi
    exact given_applied ss ps.length i hi

/-- An argument that is not a declared option, where an option is expected: the strict
parser stops there with an error, the lenient one reports it and carries on as if
it were absent.  The settings before it are kept. -/
theorem C55_unknown (ps : List Param) (h : Declared ps) (ss : List Setting)
    (hw : ∀ s ∈ ss, Writable ps s) (x : Text) (hx : ∀ p ∈ ps, x ≠ '-' :: '-' :: p.name)
    (more : List Setting) (hm : ∀ s ∈ more, Writable ps s) :
    (∃ st, parse true ps (commandLine ps ss ++ x :: commandLine ps more) = (st, true, 1) ∧
      ∀ i < ps.length, given st i = last i ss) ∧
    (∃ st, parse false ps (commandLine ps ss ++ x :: commandLine ps more) = (st, false, 1) ∧
      ∀ i < ps.length, given st i = last i (ss ++ more)) := by
  have hs := inner_skip ps 0 x (commandLine ps more) false
  have hx' : ∀ p ∈ ps, p.full ≠ x := fun p hp e => hx p hp e.symm
  have lastApp : ∀ i, last i (ss ++ more) = match last i more with
      | some t => some t
      | none => last i ss := by
    intro i
    induction ss with
    | nil => simp only [List.nil_append, last]; cases last i more <;> rfl
    | cons s ss ih =>
      rw [List.cons_append, last, ih (fun s hs => hw s (by simp [hs])), last]
      cases last i more with
      | some t => rfl
      | none => rfl
  constructor
  · refine ⟨applied ss (List.replicate ps.length none), ?_, fun i hi => given_applied ss _ i hi⟩
    unfold parse
    rw [outer_settings true ps h ss hw]
    have hs' := hs (applied ss (List.replicate ps.length none)) hx'
    rw [outer]
    split
    · rename_i heq; rw [hs'] at heq; simp at heq
    · rename_i heq; rw [hs'] at heq; simp at heq
    · rename_i heq
      rw [hs'] at heq
      simp only [Inner.done.injEq, true_and] at heq
      rw [if_pos rfl, heq.2]
  · refine ⟨applied (ss ++ more) (List.replicate ps.length none), ?_, ?_⟩
    · unfold parse
      rw [outer_settings false ps h ss hw]
      have hs' := hs (applied ss (List.replicate ps.length none)) hx'
      rw [outer]
      split
      · rename_i heq; rw [hs'] at heq; simp at heq
      · rename_i heq; rw [hs'] at heq; simp at heq
      · rename_i heq
        rw [hs'] at heq
        simp only [Inner.done.injEq, true_and] at heq
        rw [if_neg (by simp), ← heq.1, ← heq.2]
        have := outer_settings false ps h more hm [] (applied ss (List.replicate ps.length none)) 1
        rw [List.append_nil] at this
        rw [this]
        unfold outer
        simp [applied, List.foldl_append]
    · intro i hi
      exact given_applied (ss ++ more) _ i hi

/-- An option that needs a value and is not followed by one — it is the last argument,
or what follows looks like another option — raises the error flag in both versions;
parsing stops and the settings before it are kept. -/
theorem C55_missing (strict : Bool) (ps : List Param) (h : Declared ps) (ss : List Setting)
    (hw : ∀ s ∈ ss, Writable ps s) (k : Nat) (p : Param) (hp : ps[k]? = some p)
    (hk : p.kind = .value) (more : List Text)
    (hm : more = [] ∨ ∃ c r l, more = ('-' :: '-' :: c :: r) :: l) :
    ∃ st, parse strict ps (commandLine ps ss ++ ('-' :: '-' :: p.name) :: more) = (st, true, 0) ∧
      ∀ i < ps.length, given st i = last i ss := by
  refine ⟨applied ss (List.replicate ps.length none), ?_, fun i hi => given_applied ss _ i hi⟩
  unfold parse
  rw [outer_settings strict ps h ss hw]
  have hx := inner_hit ps h k p hp 0 more false (applied ss (List.replicate ps.length none))
  simp only [hk] at hx
  have hx' : inner ps 0 p.full more false (applied ss (List.replicate ps.length none)) =
      .error (applied ss (List.replicate ps.length none)) := by
    rw [hx]
    rcases hm with rfl | ⟨c, r, l, rfl⟩
    · rfl
    · simp [looksLikeOption]
  rw [show ('-' :: '-' :: p.name) = p.full from rfl, outer]
  split
  · rename_i heq
    rw [hx'] at heq
    simp only [Inner.error.injEq] at heq
    rw [heq]
  · rename_i heq; rw [hx'] at heq; simp at heq
  · rename_i heq; rw [hx'] at heq; simp at heq

/-- The decimal text of an integer. -/
def decimal (n : Int) : Text := if n < 0 then '-' :: TimeObj.natStr n.natAbs else TimeObj.natStr n.natAbs

/-- An integer written in decimal is read back as that integer, negative ones
included; such text never looks like an option, so it can be given as a value. -/
theorem C55_integer (n dflt : Int) :
    asInt dflt (some (decimal n)) = n ∧ ∀ c r, decimal n ≠ '-' :: '-' :: c :: r := by
  have hd := TimeObj.natStr_digits n.natAbs
  have hv := TimeObj.natStr_val n.natAbs 0
  rw [Nat.zero_mul, Nat.zero_add] at hv
  have hne : TimeObj.natStr n.natAbs ≠ [] := by
    unfold TimeObj.natStr
    split <;> simp
  obtain ⟨c, cs, hcs⟩ := List.exists_cons_of_ne_nil hne
  have hc : TimeObj.isDigit c = true := hd c (by rw [hcs]; simp)
  obtain ⟨h1, h2, h3⟩ := TimeObj.isDigit_not_space c hc
  unfold decimal asInt
  by_cases hn : n < 0
  · rw [if_pos hn]
    constructor
    · simp only [TimeObj.atoi]
      have e : List.dropWhile TimeObj.isSpace ('-' :: TimeObj.natStr n.natAbs) = '-' :: TimeObj.natStr n.natAbs := by
        rw [List.dropWhile_cons, if_neg (by decide)]
      rw [e]
      simp only [hv]
      omega
    · intro x r e
      rw [hcs] at e
      simp at e
      exact h2 e.1
  · rw [if_neg hn]
    constructor
    · simp only
      rw [TimeObj.atoi_digit _ c cs hcs hc, hv]
      omega
    · intro x r e
      rw [hcs] at e
      simp at e
      exact h2 e.1

/-! ## The hypotheses are met -/

def demo : List Param := [⟨"nx".toList, .value⟩, ⟨"verbose".toList, .switch⟩, ⟨"out".toList, .value⟩]

example : Declared demo := ⟨by decide, by decide⟩

example : ∀ s ∈ [(⟨0, "-3".toList⟩ : Setting), ⟨1, []⟩, ⟨0, "40".toList⟩], Writable demo s := by
  intro s hs
  simp only [List.mem_cons, List.not_mem_nil, or_false] at hs
  rcases hs with rfl | rfl | rfl
  · exact ⟨⟨"nx".toList, .value⟩, rfl, by decide, by simp⟩
  · exact ⟨⟨"verbose".toList, .switch⟩, rfl, by simp, by simp⟩
  · exact ⟨⟨"nx".toList, .value⟩, rfl, by decide, by simp⟩

example : commandLine demo [⟨0, "-3".toList⟩, ⟨1, []⟩, ⟨0, "40".toList⟩] =
    ["--nx".toList, "-3".toList, "--verbose".toList, "--nx".toList, "40".toList] := by decide

end Verif.Cli
