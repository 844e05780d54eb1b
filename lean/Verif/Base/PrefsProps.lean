import Verif.Base.Prefs
import Verif.Base.PrefsSpec
import Mathlib.Data.List.Basic

/-!
# C54: preference files are read as written
-/

namespace Verif.Prefs

open Spec (Blank Trim Means first)

theorem cut_file (lines : List Text) (hl : ∀ l ∈ lines, '\n' ∉ l) (rest : Text) (hr : '\n' ∉ rest) :
    cut (Spec.file lines rest) = (lines, rest) := by
  have tail : ∀ r : Text, '\n' ∉ r → cut r = ([], r) := by
    intro r
    induction r with
    | nil => intro _; rfl
    | cons c cs ih =>
      intro h
      simp at h
      rw [cut, ih h.2]
      simp only
      rw [if_neg (fun e => h.1 e.symm)]
  induction lines with
  | nil => exact tail rest hr
  | cons l ls ih =>
    have ih := ih (fun m hm => hl m (by simp [hm]))
    have e : Spec.file (l :: ls) rest = l ++ '\n' :: Spec.file ls rest := by
      simp [Spec.file]
    rw [e]
    have hl' := hl l (by simp)
    generalize Spec.file ls rest = f at ih
    clear e
    induction l with
    | nil => simp [cut, ih]
    | cons c cs ihc =>
      simp at hl'
      rw [List.cons_append, cut, ihc (by
        intro m hm
        rcases List.mem_cons.mp hm with rfl | hm
        · exact hl'.2
        · exact hl m (by simp [hm])) hl'.2]
      simp only
      rw [if_neg (fun e => hl'.1 e.symm)]

theorem dropSpaces_blank (a s : Text) (ha : Blank a) : dropSpaces (a ++ s) = dropSpaces s := by
  induction a with
  | nil => rfl
  | cons c cs ih =>
    have : c = ' ' := ha c (by simp)
    subst this
    rw [List.cons_append, dropSpaces]
    exact ih (fun c hc => ha c (by simp [hc]))

theorem dropSpaces_trim (s : Text) (h : s.head? ≠ some ' ') : dropSpaces s = s := by
  cases s with
  | nil => rfl
  | cons c cs =>
    unfold dropSpaces
    split
    · simp_all
    · rfl

theorem blank_snoc (b : Text) (hb : Blank b) (hne : b ≠ []) : ∃ b', b = b' ++ [' '] ∧ Blank b' := by
  refine ⟨b.dropLast, ?_, fun c hc => hb c (List.dropLast_subset _ hc)⟩
  have := List.dropLast_append_getLast hne
  rw [hb _ (List.getLast_mem hne)] at this
  exact this.symm

theorem nameEnd_trim (s b : Text) (hs : s ≠ []) (hl : s.getLast? ≠ some ' ') (hb : Blank b) :
    nameEnd (s ++ b) ((s ++ b).length - 1) = some s := by
  generalize hn : b.length = n
  induction n generalizing b with
  | zero =>
    have : b = [] := List.length_eq_zero_iff.mp hn
    subst this
    rw [List.append_nil]
    have hx : s[s.length - 1]? ≠ some ' ' := by
      rw [List.getLast?_eq_getElem?] at hl; exact hl
    cases hk : s.length - 1 with
    | zero => rw [hk] at hx; rw [nameEnd, if_neg hx]
    | succ k => rw [hk] at hx; rw [nameEnd, if_neg hx]
  | succ n ih =>
    obtain ⟨b', rfl, hb'⟩ := blank_snoc b hb (by intro e; subst e; simp at hn)
    have hlen : b'.length = n := by simpa using hn
    have hpos : 0 < s.length := List.length_pos_iff.mpr hs
    have e : (s ++ (b' ++ [' '])).length - 1 = ((s ++ b').length - 1) + 1 := by
      simp; omega
    rw [e, nameEnd]
    have e2 : (s ++ b').length - 1 + 1 = (s ++ b').length := by simp; omega
    rw [e2, ← List.append_assoc]
    simp only [List.getElem?_concat_length, if_true, List.take_left']
    exact ih b' hb' hlen

theorem nameEnd_blank (b : Text) (hb : Blank b) (hne : b ≠ []) : nameEnd b (b.length - 1) = none := by
  generalize hn : b.length = n
  induction n generalizing b with
  | zero => exact absurd (List.length_eq_zero_iff.mp hn) hne
  | succ n ih =>
    obtain ⟨b', rfl, hb'⟩ := blank_snoc b hb hne
    have hlen : b'.length = n := by simpa using hn
    cases n with
    | zero =>
      have : b' = [] := List.length_eq_zero_iff.mp hlen
      subst this
      rfl
    | succ k =>
      rw [Nat.add_sub_cancel, nameEnd, ← hlen]
      simp only [List.getElem?_concat_length, if_true, List.take_left']
      have := ih b' hb' (by intro e; subst e; simp at hlen) hlen
      simpa using this

theorem valueEnd_trim (s b : Text) (hne : s ++ b ≠ []) (hl : s.getLast? ≠ some ' ') (hb : Blank b) :
    valueEnd (s ++ b) ((s ++ b).length - 1) = s := by
  generalize hn : b.length = n
  induction n generalizing b with
  | zero =>
    have : b = [] := List.length_eq_zero_iff.mp hn
    subst this
    rw [List.append_nil]
    have hx : s[s.length - 1]? ≠ some ' ' := by
      rw [List.getLast?_eq_getElem?] at hl; exact hl
    cases hk : s.length - 1 with
    | zero => rw [hk] at hx; rw [valueEnd, if_neg hx]
    | succ k => rw [hk] at hx; rw [valueEnd, if_neg hx]
  | succ n ih =>
    obtain ⟨b', rfl, hb'⟩ := blank_snoc b hb (by intro e; subst e; simp at hn)
    have hlen : b'.length = n := by simpa using hn
    by_cases hz : s ++ b' = []
    · obtain ⟨rfl, rfl⟩ := List.append_eq_nil_iff.mp hz
      rfl
    · have hpos : 0 < (s ++ b').length := List.length_pos_iff.mpr hz
      have e : (s ++ (b' ++ [' '])).length - 1 = ((s ++ b').length - 1) + 1 := by
        rw [← List.append_assoc, List.length_append]; simp at hpos ⊢; omega
      rw [e, valueEnd]
      have e2 : (s ++ b').length - 1 + 1 = (s ++ b').length := by omega
      rw [e2, ← List.append_assoc]
      simp only [List.getElem?_concat_length, if_true, List.take_left']
      exact ih b' hz hb' hlen

theorem takeWhile_eq (x y : Text) (hx : '=' ∉ x) :
    (x ++ '=' :: y).takeWhile (fun c => c ≠ '=') = x ∧
    (x ++ '=' :: y).dropWhile (fun c => c ≠ '=') = '=' :: y := by
  induction x with
  | nil => simp
  | cons c cs ih =>
    simp at hx
    have hc : c ≠ '=' := fun e => hx.1 e.symm
    obtain ⟨a, b⟩ := ih hx.2
    constructor
    · rw [List.cons_append, List.takeWhile_cons, if_pos (by simpa using hc), a]
    · rw [List.cons_append, List.dropWhile_cons, if_pos (by simpa using hc), b]

theorem line_means (m : List (Text × Text)) (s : Text) (r : Option (Text × Text)) (h : Means s r) :
    line m s = .ok (match r with
      | none => m
      | some (n, v) => insert m n v) := by
  cases h with
  | blank => rfl
  | comment s => simp [line]
  | entry a name b c value d ha hb hc hd hne hn hv he hh =>
    have neq : '=' ∉ a ++ name ++ b := by
      simp only [List.mem_append, not_or]
      refine ⟨⟨?_, he⟩, ?_⟩
      · intro h; exact absurd (ha _ h) (by decide)
      · intro h; exact absurd (hb _ h) (by decide)
    obtain ⟨t1, t2⟩ := takeWhile_eq (a ++ name ++ b) (c ++ value ++ d) neq
    unfold line
    rw [if_neg (by simp), if_neg, if_neg (by simp), t1, t2]
    · have hn0 : a ++ name ++ b ≠ [] := by simp [hne]
      have e1 : nameEnd (a ++ name ++ b) ((a ++ name ++ b).length - 1) = some (a ++ name) :=
        nameEnd_trim (a ++ name) b (by simp [hne])
          (by rw [List.getLast?_append_of_ne_nil _ hne]; exact hn.2) hb
      have e2 : dropSpaces (a ++ name) = name := by
        rw [dropSpaces_blank a name ha, dropSpaces_trim name hn.1]
      simp only [List.drop_succ_cons, List.drop_zero]
      rw [if_neg hn0, e1]
      simp only [e2]
      congr 1
      by_cases hz : c ++ value ++ d = []
      · rw [if_pos hz]
        obtain ⟨h1, h2⟩ := List.append_eq_nil_iff.mp hz
        obtain ⟨h3, h4⟩ := List.append_eq_nil_iff.mp h1
        rw [hz, h4]; rfl
      · rw [if_neg hz]
        by_cases hv0 : value = []
        · subst hv0
          have := valueEnd_trim [] (c ++ d) (by simpa using hz) (by simp)
            (by intro x hx; rcases List.mem_append.mp hx with h | h
                · exact hc x h
                · exact hd x h)
          simp only [List.nil_append] at this
          rw [List.append_nil, this]; rfl
        · rw [valueEnd_trim (c ++ value) d hz
            (by rw [List.getLast?_append_of_ne_nil _ hv0]; exact hv.2) hd,
            dropSpaces_blank c value hc, dropSpaces_trim value hv.1]
    · cases a with
      | nil =>
        have := hh rfl
        cases name with
        | nil => exact absurd rfl hne
        | cons x xs => simpa using this
      | cons x xs =>
        have : x = ' ' := ha x (by simp)
        simp [this]

theorem find_insert (m : List (Text × Text)) (n v name : Text) :
    find (insert m n v) name =
      match find m name with
      | some w => some w
      | none => if n = name then some v else none := by
  have mem : ∀ m : List (Text × Text), m.any (fun e => e.1 = name) = true ↔ (find m name).isSome := by
    intro m
    unfold find
    simp
  unfold insert
  by_cases h : m.any (fun e => e.1 = n) = true
  · rw [if_pos h]
    cases hf : find m name with
    | some w => rfl
    | none =>
      simp only
      by_cases e : n = name
      · subst e
        have := (mem m).mp h
        rw [hf] at this
        simp at this
      · rw [if_neg e]
  · rw [if_neg h]
    unfold find
    rw [List.find?_append]
    cases hf : m.find? (fun e => decide (e.1 = name)) with
    | some w => simp
    | none =>
      by_cases e : n = name <;> simp [e]

theorem run_means (lines : List Text) (ms : List (Option (Text × Text)))
    (h : List.Forall₂ Means lines ms) (hlen : ∀ l ∈ lines, l.length ≤ 255)
    (rest : Text) (hr : rest.length ≤ 255) (m : List (Text × Text)) :
    ∃ m', run m lines rest = .ok m' ∧
      ∀ name, find m' name = match find m name with
        | some w => some w
        | none => first name ms := by
  induction h generalizing m with
  | nil =>
    refine ⟨m, by rw [run, if_neg (by omega)], ?_⟩
    intro name
    cases find m name <;> rfl
  | @cons l r ls rs hl hs ih =>
    rw [run, if_neg (by have := hlen l (by simp); omega), line_means m l r hl]
    simp only
    obtain ⟨m', h1, h2⟩ := ih (fun k hk => hlen k (by simp [hk])) (match r with
      | none => m
      | some (n, v) => insert m n v)
    refine ⟨m', h1, ?_⟩
    intro name
    rw [h2 name]
    cases r with
    | none => rfl
    | some nv =>
      obtain ⟨n, v⟩ := nv
      simp only
      rw [find_insert]
      cases find m name with
      | some w => rfl
      | none =>
        simp only [first]
        by_cases e : n = name
        · rw [if_pos e, if_pos e]
        · rw [if_neg e, if_neg e]

/-- A file of well-formed lines, each ended by a newline, is read successfully, and
each name has the trimmed value of the first line that mentions it; comments and
blank lines contribute nothing. Lines are at most 255 characters long. -/
theorem C54_read_partial (lines : List Text) (ms : List (Option (Text × Text)))
    (h : List.Forall₂ Means lines ms) (hlen : ∀ l ∈ lines, l.length ≤ 255 ∧ '\n' ∉ l) :
    ∃ m, parse (Spec.file lines []) = .ok m ∧ ∀ name, asString m name = first name ms := by
  obtain ⟨m, h1, h2⟩ := run_means lines ms h (fun l hl => (hlen l hl).1) [] (by simp) []
  refine ⟨m, ?_, ?_⟩
  · unfold parse
    rw [cut_file lines (fun l hl => (hlen l hl).2) [] (by simp)]
    exact h1
  · intro name
    exact h2 name

/-- The accessors agree with one another: the checked one throws exactly when the
unchecked one reports an error, and otherwise both give the same text; the
case-insensitive one gives the same text in lower case. -/
theorem C54_getters (m : List (Text × Text)) (name : Text) :
    (asString m name = none ↔ asStringNoThrow m name = ([], 1)) ∧
    (∀ v, asString m name = some v ↔ asStringNoThrow m name = (v, 0)) ∧
    asStringNoCase m name = (asString m name).map (fun v => v.map lower) := by
  unfold asString asStringNoThrow asStringNoCase
  cases find m name with
  | none => simp
  | some v => simp

/-- A line with no equal sign makes reading fail, whatever follows. -/
theorem C54_malformed (lines : List Text) (ms : List (Option (Text × Text)))
    (h : List.Forall₂ Means lines ms) (hlen : ∀ l ∈ lines, l.length ≤ 255 ∧ '\n' ∉ l)
    (bad : Text) (hb : bad ≠ []) (hc : bad.head? ≠ some '#') (he : '=' ∉ bad) (hn : '\n' ∉ bad)
    (more : Text) : parse (Spec.file (lines ++ [bad]) more) = .throws := by
  obtain ⟨extra, rest, he2, hx⟩ : ∃ extra rest, (∀ l ∈ extra, '\n' ∉ l) ∧
      more = Spec.file extra rest ∧ '\n' ∉ rest := by
    induction more with
    | nil => exact ⟨[], [], by simp, rfl, by simp⟩
    | cons c cs ih =>
      obtain ⟨ex, r, h1, h2, h3⟩ := ih
      by_cases hc : c = '\n'
      · subst hc
        exact ⟨[] :: ex, r, by
          intro l hl
          rcases List.mem_cons.mp hl with rfl | hl
          · simp
          · exact h1 l hl, by rw [h2]; rfl, h3⟩
      · cases ex with
        | nil => exact ⟨[], c :: r, by simp, by rw [h2]; rfl, by
            intro hm
            rcases List.mem_cons.mp hm with e | hm
            · exact hc e.symm
            · exact h3 hm⟩
        | cons l ls => exact ⟨(c :: l) :: ls, r, by
            intro k hk
            rcases List.mem_cons.mp hk with rfl | hk
            · intro hm
              rcases List.mem_cons.mp hm with e | hm
              · exact hc e.symm
              · exact h1 l (by simp) hm
            · exact h1 k (by simp [hk]), by rw [h2]; simp [Spec.file], h3⟩
  obtain ⟨rfl, hrest⟩ := hx
  have e : Spec.file (lines ++ [bad]) (Spec.file extra rest) =
      Spec.file (lines ++ bad :: extra) rest := by
    simp [Spec.file]
  unfold parse
  rw [e, cut_file _ (by
    intro l hl
    rcases List.mem_append.mp hl with hl | hl
    · exact (hlen l hl).2
    · rcases List.mem_cons.mp hl with rfl | hl
      · exact hn
      · exact he2 l hl) rest hrest]
  have lineBad : ∀ m (s : Text), s ≠ [] → s.head? ≠ some '#' → '=' ∉ s → line m s = .throws := by
    intro m s h1 h2 h3
    unfold line
    rw [if_neg h1, if_neg h2, if_pos (by simpa using h3)]
  have key : ∀ m, run m (lines ++ bad :: extra) rest = .throws := by
    clear e he2
    induction h with
    | nil =>
      intro m
      rw [List.nil_append, run]
      by_cases hlong : bad.length > 255
      · rw [if_pos hlong, lineBad m (bad.take 255)]
        · intro e0
          have := congrArg List.length e0
          rw [List.length_take, List.length_nil] at this
          omega
        · rw [List.head?_take]; simpa using hc
        · exact fun hm => he (List.mem_of_mem_take hm)
      · rw [if_neg hlong, lineBad m bad hb hc he]
    | @cons l r ls rs hl hs ih =>
      intro m
      rw [List.cons_append, run, if_neg (by have := (hlen l (by simp)).1; omega),
        line_means m l r hl]
      exact ih (fun k hk => hlen k (by simp [hk])) _
  exact key []

/-- A name made only of spaces is rejected. -/
theorem C54_no_name (m : List (Text × Text)) (a y : Text) (ha : Blank a) (hne : a ≠ []) :
    line m (a ++ '=' :: y) = .throws := by
  have neq : '=' ∉ a := fun h => absurd (ha _ h) (by decide)
  obtain ⟨t1, t2⟩ := takeWhile_eq a y neq
  unfold line
  rw [if_neg (by simp), if_neg, if_neg (by simp), t1]
  · simp only
    rw [if_neg hne, nameEnd_blank a ha hne]
  · cases a with
    | nil => exact absurd rfl hne
    | cons x xs =>
      have : x = ' ' := ha x (by simp)
      simp [this]

/-- Text after the last newline is lost: a final line that is not ended by a newline
has no effect, whatever it says. -/
theorem C54_last_line_lost (lines : List Text) (hl : ∀ l ∈ lines, '\n' ∉ l) (rest : Text)
    (hr : '\n' ∉ rest) (h255 : rest.length ≤ 255) :
    parse (Spec.file lines rest) = parse (Spec.file lines []) := by
  unfold parse
  rw [cut_file lines hl rest hr, cut_file lines hl [] (by simp)]
  simp only
  generalize ([] : List (Text × Text)) = m
  induction lines generalizing m with
  | nil => rw [run, run, if_neg (by omega), if_neg (by simp)]
  | cons l ls ih =>
    rw [run, run]
    by_cases hlong : l.length > 255
    · rw [if_pos hlong, if_pos hlong]
    · rw [if_neg hlong, if_neg hlong]
      cases line m l with
      | ok m' => exact ih (fun k hk => hl k (by simp [hk])) m'
      | _ => rfl

/-- A line of more than 255 characters whose first 255 are acceptable makes the
program loop for ever. -/
theorem C54_long_line (lines : List Text) (ms : List (Option (Text × Text)))
    (h : List.Forall₂ Means lines ms) (hlen : ∀ l ∈ lines, l.length ≤ 255 ∧ '\n' ∉ l)
    (long : Text) (hl : 255 < long.length) (hn : '\n' ∉ long) (r : Option (Text × Text))
    (hm : Means (long.take 255) r) (more : List Text) (hmore : ∀ l ∈ more, '\n' ∉ l) :
    parse (Spec.file (lines ++ long :: more) []) = .hangs := by
  unfold parse
  rw [cut_file _ (by
    intro l hl'
    rcases List.mem_append.mp hl' with hl' | hl'
    · exact (hlen l hl').2
    · rcases List.mem_cons.mp hl' with rfl | hl'
      · exact hn
      · exact hmore l hl') [] (by simp)]
  have key : ∀ m, run m (lines ++ long :: more) [] = .hangs := by
    induction h with
    | nil =>
      intro m
      rw [List.nil_append, run, if_pos hl, line_means m _ r hm]
    | @cons l r ls rs hl' hs ih =>
      intro m
      rw [List.cons_append, run, if_neg (by have := (hlen l (by simp)).1; omega),
        line_means m l r hl']
      exact ih (fun k hk => hlen k (by simp [hk])) _
  exact key []

/-! ## The hypotheses are met -/

example : Means "  dt  = 200 s ".toList (some ("dt".toList, "200 s".toList)) :=
  Means.entry [' ', ' '] "dt".toList [' ', ' '] [' '] "200 s".toList [' ']
    (by simp [Blank]) (by simp [Blank]) (by simp [Blank]) (by simp [Blank]) (by simp)
    (by simp [Trim]) (by simp [Trim]) (by simp) (by simp)

example : parse "# run\n\n  dt  = 200 s \ndt = 3\nout=\n".toList =
    .ok [("dt".toList, "200 s".toList), ("out".toList, [])] := by decide

example : parse "a = 1\nb = 2".toList = .ok [("a".toList, "1".toList)] := by decide

example : parse "a = 1\nhello\nb = 2\n".toList = .throws := by decide

example : parse "= 1\n".toList = .undefined := by decide

end Verif.Prefs
