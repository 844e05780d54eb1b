/-
C148: the helpers for text.
-/
import Verif.Base.Strings
import Verif.Base.StringsSpec
import Mathlib.Data.List.TakeDrop
namespace Verif.Base.Strings

open Spec

theorem lower_char (c : Char) (h : c.toNat < 128) : lower c.toNat = some c.toLower.toNat := by
  have : ∀ n : Fin 128, lower (Char.ofNat n).toNat = some (Char.ofNat n).toLower.toNat := by decide
  have e := this ⟨c.toNat, h⟩
  simpa only [Char.ofNat_toNat] using e

theorem upper_char (c : Char) (h : c.toNat < 128) : upper c.toNat = some c.toUpper.toNat := by
  have : ∀ n : Fin 128, upper (Char.ofNat n).toNat = some (Char.ofNat n).toUpper.toNat := by decide
  have e := this ⟨c.toNat, h⟩
  simpa only [Char.ofNat_toNat] using e

theorem each_text (f : Nat → Option Nat) (g : Char → Char) (hf : ∀ c : Char, c.toNat < 128 → f c.toNat = some (g c).toNat)
    (t : List Char) (ht : Text t) (rest : List Nat) : each f (bytes t ++ 0 :: rest) = some (bytes (t.map g) ++ 0 :: rest) := by
  induction t with
  | nil => simp [bytes, each]
  | cons c t ih =>
    obtain ⟨h1, h2⟩ := ht c (by simp)
    have := ih fun d hd => ht d (by simp [hd])
    simp only [bytes, List.map_cons, List.cons_append, each, if_neg h2, hf c h1] at this ⊢
    rw [this]

theorem eachIn_text (f : Nat → Option Nat) (g : Char → Char) (hf : ∀ c : Char, c.toNat < 128 → f c.toNat = some (g c).toNat)
    (t : List Char) (ht : ∀ c ∈ t, c.toNat < 128) : eachIn f (bytes t) = some (bytes (t.map g)) := by
  induction t with
  | nil => simp [bytes, eachIn]
  | cons c t ih =>
    have := ih fun d hd => ht d (by simp [hd])
    simp only [bytes, List.map_cons, eachIn, hf c (ht c (by simp))] at this ⊢
    rw [this]

/-- **C148.** ToLower and ToUpper change the letters of a text, of any length, and nothing else: not the terminator and not the memory after it; so do the
forms for strings, which also pass zeros. -/
theorem C148_case (t : List Char) (rest : List Nat) :
    (Text t → toLower (bytes t ++ 0 :: rest) = some (bytes (t.map Char.toLower) ++ 0 :: rest)
      ∧ toUpper (bytes t ++ 0 :: rest) = some (bytes (t.map Char.toUpper) ++ 0 :: rest))
    ∧ ((∀ c ∈ t, c.toNat < 128) → toLowerIn (bytes t) = some (bytes (t.map Char.toLower))
      ∧ toUpperIn (bytes t) = some (bytes (t.map Char.toUpper))) :=
  ⟨fun h => ⟨each_text _ _ lower_char t h rest, each_text _ _ upper_char t h rest⟩,
    fun h => ⟨eachIn_text _ _ lower_char t h, eachIn_text _ _ upper_char t h⟩⟩

/-- **C148.** The letters are those of the alphabet: the capital at a place of it becomes the small letter at that place, and the reverse. -/
theorem C148_letters (i : Nat) (h : i < 26) :
    lower (capitalLetters[i]'h).toNat = some (smallLetters[i]'h).toNat ∧ upper (smallLetters[i]'h).toNat = some (capitalLetters[i]'h).toNat := by
  have : ∀ i : Fin 26, lower (capitalLetters[i.1]'i.2).toNat = some (smallLetters[i.1]'i.2).toNat
      ∧ upper (smallLetters[i.1]'i.2).toNat = some (capitalLetters[i.1]'i.2).toNat := by decide
  exact this ⟨i, h⟩

/-- **C148.** A byte beyond ASCII anywhere in the text makes the conversion undefined (the claim for all texts is false): the byte is passed as a negative
number. -/
theorem C148_case_false (t : List Char) (ht : Text t) (b : Nat) (hb : 128 ≤ b) (rest : List Nat) :
    toLower (bytes t ++ b :: rest) = none ∧ toUpper (bytes t ++ b :: rest) = none
      ∧ toLowerIn (bytes t ++ b :: rest) = none ∧ toUpperIn (bytes t ++ b :: rest) = none := by
  have hb0 : b ≠ 0 := by omega
  induction t with
  | nil => simp [bytes, toLower, toUpper, toLowerIn, toUpperIn, each, eachIn, lower, upper, hb, hb0]
  | cons c t ih =>
    obtain ⟨h1, h2⟩ := ht c (by simp)
    obtain ⟨i1, i2, i3, i4⟩ := ih fun d hd => ht d (by simp [hd])
    simp only [toLower, toUpper, toLowerIn, toUpperIn, bytes] at i1 i2 i3 i4
    simp only [toLower, toUpper, toLowerIn, toUpperIn, bytes, List.map_cons, List.cons_append, each, eachIn, if_neg h2, lower_char c h1,
      upper_char c h1, i1, i2, i3, i4, and_self]

theorem blank_byte (c : Char) : (c.toNat = 32 ∨ c.toNat = 9 ∨ c.toNat = 13 ∨ c.toNat = 10) ↔ Blank c := by
  have e : ∀ d : Char, c.toNat = d.toNat ↔ c = d := fun d => ⟨fun h => by rw [← Char.ofNat_toNat c, h, Char.ofNat_toNat], fun h => by rw [h]⟩
  unfold Blank
  rw [← e ' ', ← e '\t', ← e '\r', ← e '\n']
  rfl

/-- **C148.** IgnoreWhitespace moves past all the white space in front of a byte that is not, the terminator for instance, and stops there. -/
theorem C148_ignore (w : List Char) (hw : ∀ c ∈ w, Blank c) (b : Nat) (hb : ∀ c : Char, Blank c → c.toNat ≠ b) (rest : List Nat) :
    ignoreWhitespace (bytes w ++ b :: rest) = some w.length := by
  induction w with
  | nil =>
    have n1 := hb ' ' (by simp [Blank])
    have n2 := hb '\t' (by simp [Blank])
    have n3 := hb '\r' (by simp [Blank])
    have n4 := hb '\n' (by simp [Blank])
    have : ¬ (b = 32 ∨ b = 9 ∨ b = 13 ∨ b = 10) := by
      rintro (h | h | h | h)
      · exact n1 h.symm
      · exact n2 h.symm
      · exact n3 h.symm
      · exact n4 h.symm
    simp [bytes, ignoreWhitespace, this]
  | cons c t ih =>
    have := ih fun d hd => hw d (by simp [hd])
    simp only [bytes] at this
    simp only [bytes, List.map_cons, List.cons_append, ignoreWhitespace, if_pos ((blank_byte c).2 (hw c (by simp))), this, Option.map_some,
      List.length_cons]

/-- **C148.** FindWhitespace moves to the first white space or, if there is none, to the terminator. -/
theorem C148_find (w : List Char) (hw : ∀ c ∈ w, ¬ Blank c ∧ c.toNat ≠ 0) (b : Nat) (hb : b = 0 ∨ ∃ c : Char, Blank c ∧ c.toNat = b)
    (rest : List Nat) : findWhitespace (bytes w ++ b :: rest) = some w.length := by
  induction w with
  | nil =>
    have : ¬ (b ≠ 32 ∧ b ≠ 9 ∧ b ≠ 13 ∧ b ≠ 10 ∧ b ≠ 0) := by
      rintro ⟨h1, h2, h3, h4, h5⟩
      rcases hb with h | ⟨c, hc, rfl⟩
      · exact h5 h
      · have := (blank_byte c).2 hc
        omega
    simp only [bytes, List.map_nil, List.nil_append, findWhitespace, if_neg this, List.length_nil]
  | cons c t ih =>
    have := ih fun d hd => hw d (by simp [hd])
    simp only [bytes] at this
    obtain ⟨h1, h2⟩ := hw c (by simp)
    have h3 : c.toNat ≠ 32 ∧ c.toNat ≠ 9 ∧ c.toNat ≠ 13 ∧ c.toNat ≠ 10 ∧ c.toNat ≠ 0 := by
      have := mt (blank_byte c).1 h1
      omega
    simp only [bytes, List.map_cons, List.cons_append, findWhitespace, if_pos h3, this, Option.map_some, List.length_cons]

/-- **C148.** Neither leaves a text with its terminator, whatever it holds. -/
theorem C148_within (t : List Nat) (rest : List Nat) :
    (∃ k, ignoreWhitespace (t ++ 0 :: rest) = some k ∧ k ≤ t.length) ∧ ∃ k, findWhitespace (t ++ 0 :: rest) = some k ∧ k ≤ t.length := by
  induction t with
  | nil => simp [ignoreWhitespace, findWhitespace]
  | cons c t ih =>
    obtain ⟨⟨k, h1, h2⟩, ⟨l, h3, h4⟩⟩ := ih
    constructor
    · by_cases h : c = 32 ∨ c = 9 ∨ c = 13 ∨ c = 10
      · exact ⟨k + 1, by simp [ignoreWhitespace, h, h1], by simpa using h2⟩
      · exact ⟨0, by simp [ignoreWhitespace, h], by simp⟩
    · by_cases h : c ≠ 32 ∧ c ≠ 9 ∧ c ≠ 13 ∧ c ≠ 10 ∧ c ≠ 0
      · exact ⟨l + 1, by simp [findWhitespace, h, h3], by simpa using h4⟩
      · exact ⟨0, by simp only [List.cons_append, findWhitespace, if_neg h], by simp⟩

/-- A digit adds its value in one turn of the loop, if the sums fit. -/
theorem hexStep_digit {c : Char} {v : Nat} (h : HexDigit c v) (x : Nat) :
    v < 16 ∧ (x * 16 + v + 112 ≤ intMax → hexStep x c.toNat = some (some (x * 16 + v)))
      ∧ (intMax < x * 16 + v → hexStep x c.toNat = none)
      ∧ (hexStep x c.toNat = some (some (x * 16 + v)) ∨ hexStep x c.toNat = none) ∧ (intMax < x * 16 + 48 → hexStep x c.toNat = none) := by
  have key : ∀ p ∈ "0123456789ABCDEF".toList.zip (List.range 16) ++ "0123456789abcdef".toList.zip (List.range 16),
      p.2 < 16 ∧ ((48 ≤ p.1.toNat ∧ p.1.toNat ≤ 57 ∧ p.1.toNat = p.2 + 48) ∨ (65 ≤ p.1.toNat ∧ p.1.toNat ≤ 70 ∧ p.1.toNat + 10 = p.2 + 65)
        ∨ (97 ≤ p.1.toNat ∧ p.1.toNat ≤ 102 ∧ p.1.toNat + 10 = p.2 + 97)) := by decide
  obtain ⟨hv, hk⟩ := key (c, v) (by
    rcases h with h | h
    · exact List.mem_append_left _ h
    · exact List.mem_append_right _ h)
  simp only at hv hk
  have none_of : (intMax < x * 16 + v ∨ intMax < x * 16 + 48) → hexStep x c.toNat = none := by
    intro hx
    unfold hexStep
    by_cases h1 : intMax < x * 16
    · rw [if_pos h1]
    rw [if_neg h1]
    rcases hk with ⟨a, b, e⟩ | ⟨a, b, e⟩ | ⟨a, b, e⟩
    · rw [if_pos ⟨a, b⟩, if_pos (by omega)]
    · rw [if_neg (by omega), if_pos ⟨a, b⟩, if_pos (by omega)]
    · rw [if_neg (by omega), if_neg (by omega), if_pos ⟨a, b⟩, if_pos (by omega)]
  have some_of : hexStep x c.toNat = some (some (x * 16 + v)) ∨ hexStep x c.toNat = none := by
    unfold hexStep
    by_cases h1 : intMax < x * 16
    · right
      rw [if_pos h1]
    rw [if_neg h1]
    rcases hk with ⟨a, b, e⟩ | ⟨a, b, e⟩ | ⟨a, b, e⟩
    · rw [if_pos ⟨a, b⟩]
      by_cases h2 : intMax < x * 16 + c.toNat
      · right
        rw [if_pos h2]
      · left
        rw [if_neg h2]
        exact congrArg (fun z => some (some z)) (by omega)
    · rw [if_neg (by omega), if_pos ⟨a, b⟩]
      by_cases h2 : intMax < x * 16 + 10 + c.toNat
      · right
        rw [if_pos h2]
      · left
        rw [if_neg h2]
        exact congrArg (fun z => some (some z)) (by omega)
    · rw [if_neg (by omega), if_neg (by omega), if_pos ⟨a, b⟩]
      by_cases h2 : intMax < x * 16 + 10 + c.toNat
      · right
        rw [if_pos h2]
      · left
        rw [if_neg h2]
        exact congrArg (fun z => some (some z)) (by omega)
  refine ⟨hv, fun hx => ?_, fun hx => none_of (Or.inl hx), some_of, fun hx => none_of (Or.inr hx)⟩
  · unfold hexStep
    rw [if_neg (by omega)]
    rcases hk with ⟨a, b, e⟩ | ⟨a, b, e⟩ | ⟨a, b, e⟩
    · rw [if_pos ⟨a, b⟩, if_neg (by omega)]
      exact congrArg (fun z => some (some z)) (by omega)
    · rw [if_neg (by omega), if_pos ⟨a, b⟩, if_neg (by omega)]
      exact congrArg (fun z => some (some z)) (by omega)
    · rw [if_neg (by omega), if_neg (by omega), if_pos ⟨a, b⟩, if_neg (by omega)]
      exact congrArg (fun z => some (some z)) (by omega)

theorem hexLoop_digits {s : List Char} {values : List Nat} (h : List.Forall₂ HexDigit s values) :
    (Nat.ofDigits 16 values + 112 ≤ intMax → hexLoop (bytes s) = some (some (Nat.ofDigits 16 values)))
      ∧ (intMax < Nat.ofDigits 16 values → hexLoop (bytes s) = none)
      ∧ (hexLoop (bytes s) = some (some (Nat.ofDigits 16 values)) ∨ hexLoop (bytes s) = none) := by
  induction h with
  | nil => simp [bytes, hexLoop, Nat.ofDigits, intMax]
  | @cons c v s values hc hs ih =>
    obtain ⟨i1, i2, i3⟩ := ih
    have ev : Nat.ofDigits 16 (v :: values) = Nat.ofDigits 16 values * 16 + v := by
      rw [Nat.ofDigits_cons]
      omega
    obtain ⟨-, s1, s2, s3, -⟩ := hexStep_digit hc (Nat.ofDigits 16 values)
    have el : hexLoop (bytes (c :: s)) = match hexLoop (bytes s) with
      | none => none
      | some none => some none
      | some (some value) => hexStep value c.toNat := rfl
    rw [ev, el]
    rcases i3 with i3 | i3
    · rw [i3]
      exact ⟨s1, s2, s3⟩
    · rw [i3]
      refine ⟨fun hx => ?_, fun _ => rfl, Or.inr rfl⟩
      rw [i1 (by omega)] at i3
      cases i3

theorem digit_ne_zero {c : Char} {v : Nat} (h : HexDigit c v) : c.toNat ≠ 0 := by
  have key : ∀ p ∈ "0123456789ABCDEF".toList.zip (List.range 16) ++ "0123456789abcdef".toList.zip (List.range 16), p.1.toNat ≠ 0 := by decide
  exact key (c, v) (by
    rcases h with h | h
    · exact List.mem_append_left _ h
    · exact List.mem_append_right _ h)

theorem length_bytes (s : List Nat) (h : ∀ c ∈ s, c ≠ 0) (rest : List Nat) : length (s ++ 0 :: rest) = some s.length := by
  induction s with
  | nil => simp [length]
  | cons c s ih =>
    have := ih fun d hd => h d (by simp [hd])
    simp [length, h c (by simp), this]

theorem bytes_ne_zero {s : List Char} {values : List Nat} (h : List.Forall₂ HexDigit s values) : ∀ c ∈ bytes s, c ≠ 0 := by
  induction h with
  | nil => simp [bytes]
  | @cons c v s values hc hs ih =>
    intro d hd
    simp only [bytes, List.map_cons, List.mem_cons] at hd ih
    rcases hd with rfl | hd
    · exact digit_ne_zero hc
    · exact ih d hd

/-- The call without a length reads up to the terminator. -/
theorem stringToHex_all (b : List Nat) (h : ∀ c ∈ b, c ≠ 0) (rest : List Nat) :
    stringToHex (b ++ 0 :: rest) 0 = match hexLoop b with
      | none => none
      | some none => some (-1)
      | some (some value) => some (value : Int) := by
  unfold stringToHex
  simp only [if_true, length_bytes b h rest, Option.map_some, List.take_left']
  rfl

/-- The call with a length reads as many bytes. -/
theorem stringToHex_length (b : List Nat) (h : b ≠ []) (rest : List Nat) :
    stringToHex (b ++ rest) b.length = match hexLoop b with
      | none => none
      | some none => some (-1)
      | some (some value) => some (value : Int) := by
  have h0 : 0 < b.length := List.length_pos_iff.2 h
  unfold stringToHex
  simp only [if_neg (show ¬ ((b.length : Int) = 0) by omega), if_neg (show ¬ ((b.length : Int) < 0) by omega), Int.toNat_natCast,
    if_neg (show ¬ ((b ++ rest).length < b.length) by simp), List.take_left']
  rfl

/-- **C148.** For hexadecimal digits, of any number, StringToHex returns their number read from the last digit to the first, so that the first counts least,
whenever it is below the largest int by 112 or more; beyond the largest int there is no result.  With a length the same holds of as many bytes. -/
theorem C148_hex {s : List Char} {values : List Nat} (h : List.Forall₂ HexDigit s values) (rest : List Nat) :
    (written values.reverse + 112 ≤ 2 ^ 31 - 1 → stringToHex (bytes s ++ 0 :: rest) 0 = some (written values.reverse : Int)
      ∧ (s ≠ [] → stringToHex (bytes s ++ rest) s.length = some (written values.reverse : Int)))
    ∧ (2 ^ 31 - 1 < written values.reverse → stringToHex (bytes s ++ 0 :: rest) 0 = none
      ∧ stringToHex (bytes s ++ rest) s.length = none) := by
  obtain ⟨h1, h2, -⟩ := hexLoop_digits h
  have e : written values.reverse = Nat.ofDigits 16 values := by rw [written, List.reverse_reverse]
  have el : (bytes s).length = s.length := by simp [bytes]
  rw [e]
  constructor
  · intro hx
    have := h1 (by simpa [intMax] using hx)
    refine ⟨by rw [stringToHex_all _ (bytes_ne_zero h), this], fun hs => ?_⟩
    rw [← el, stringToHex_length _ (by simpa [bytes] using hs), this]
  · intro hx
    have := h2 (by simpa [intMax] using hx)
    refine ⟨by rw [stringToHex_all _ (bytes_ne_zero h), this], ?_⟩
    have hs : s ≠ [] := by
      rintro rfl
      simp [bytes, hexLoop] at this
    rw [← el, stringToHex_length _ (by simpa [bytes] using hs), this]

/-- **C148.** That is not the number as it is written: a digit followed by zeros, any number of them, gives the digit. -/
theorem C148_hex_false (c : Char) (v : Nat) (hc : HexDigit c v) (hv : v ≠ 0) (k : Nat) (hk : 0 < k) (rest : List Nat) :
    List.Forall₂ HexDigit (c :: List.replicate k '0') (v :: List.replicate k 0)
    ∧ stringToHex (bytes (c :: List.replicate k '0') ++ 0 :: rest) 0 = some (v : Int) ∧ written (v :: List.replicate k 0) = v * 16 ^ k
    ∧ v ≠ v * 16 ^ k := by
  have hz : List.Forall₂ HexDigit (List.replicate k '0') (List.replicate k 0) := by
    clear hk
    induction k with
    | zero => exact .nil
    | succ k ih => exact .cons (Or.inl (by decide)) ih
  have hr : ∀ k, Nat.ofDigits 16 (List.replicate k 0) = 0 := by
    intro k
    induction k with
    | zero => rfl
    | succ k ih => rw [List.replicate_succ, Nat.ofDigits_cons, ih]
  have hvl := (hexStep_digit hc 0).1
  have ew : written (v :: List.replicate k 0).reverse = v := by
    rw [written, List.reverse_reverse, Nat.ofDigits_cons, hr]
    simp
  refine ⟨.cons hc hz, ?_, ?_, ?_⟩
  · have := ((C148_hex (.cons hc hz) rest).1 (by rw [ew]; omega)).1
    rw [this, ew]
  · rw [written, List.reverse_cons, List.reverse_replicate, Nat.ofDigits_append, hr]
    simp [Nat.ofDigits, Nat.mul_comm]
  · have : 1 < 16 ^ k := Nat.one_lt_pow (by omega) (by omega)
    intro e
    have : v * 1 < v * 16 ^ k := Nat.mul_lt_mul_of_pos_left this (by omega)
    omega

/-- **C148.** Nor has every int a result: sixteen of them, the largest, have none though each fits, since the byte of the digit is added before that of zero is
subtracted. -/
theorem C148_hex_edge_false (c : Char) (v : Nat) (hc : HexDigit c v) (rest : List Nat) :
    List.Forall₂ HexDigit (c :: "FFFFFF7".toList) (v :: [15, 15, 15, 15, 15, 15, 7])
    ∧ written (v :: [15, 15, 15, 15, 15, 15, 7]).reverse ≤ 2 ^ 31 - 1 ∧ stringToHex (bytes (c :: "FFFFFF7".toList) ++ 0 :: rest) 0 = none := by
  obtain ⟨hv, -, -, -, hs⟩ := hexStep_digit hc 134217727
  have hF : HexDigit 'F' 15 := Or.inl (by decide)
  have h7 : HexDigit '7' 7 := Or.inl (by decide)
  have hall : List.Forall₂ HexDigit (c :: "FFFFFF7".toList) (v :: [15, 15, 15, 15, 15, 15, 7]) :=
    .cons hc (.cons hF (.cons hF (.cons hF (.cons hF (.cons hF (.cons hF (.cons h7 .nil)))))))
  refine ⟨hall, ?_, ?_⟩
  · rw [written, List.reverse_reverse, Nat.ofDigits_cons]
    have : Nat.ofDigits 16 [15, 15, 15, 15, 15, 15, 7] = 134217727 := by decide
    rw [this]
    omega
  · rw [stringToHex_all _ (bytes_ne_zero hall)]
    have : hexLoop (bytes "FFFFFF7".toList) = some (some 134217727) := by decide
    have el : hexLoop (bytes (c :: "FFFFFF7".toList)) = match hexLoop (bytes "FFFFFF7".toList) with
      | none => none
      | some none => some none
      | some (some value) => hexStep value c.toNat := rfl
    rw [el, this]
    simp only
    rw [hs (by decide)]

theorem hexLoop_stop (pre : List Nat) {t : List Nat} (h : hexLoop t = some none) : hexLoop (pre ++ t) = some none := by
  induction pre with
  | nil => exact h
  | cons c pre ih => simp only [List.cons_append, hexLoop, ih]

/-- **C148.** A byte that is no hexadecimal digit gives -1, whatever stands before it, when the digits after it have a number of at most seven digits. -/
theorem C148_hex_bad (pre : List Nat) (hp : ∀ c ∈ pre, c ≠ 0) (b : Nat) (hb0 : b ≠ 0) (hb : ∀ c v, HexDigit c v → c.toNat ≠ b) {s : List Char}
    {values : List Nat} (h : List.Forall₂ HexDigit s values) (hx : written values.reverse * 16 ≤ 2 ^ 31 - 1) (rest : List Nat) :
    stringToHex (pre ++ b :: bytes s ++ 0 :: rest) 0 = some (-1) := by
  have e : written values.reverse = Nat.ofDigits 16 values := by rw [written, List.reverse_reverse]
  rw [e] at hx
  have hl := (hexLoop_digits h).1 (by unfold intMax; omega)
  have key : ∀ n : Fin 128, (48 ≤ n.1 ∧ n.1 ≤ 57 ∨ 65 ≤ n.1 ∧ n.1 ≤ 70 ∨ 97 ≤ n.1 ∧ n.1 ≤ 102) →
      ∃ p ∈ "0123456789ABCDEF".toList.zip (List.range 16) ++ "0123456789abcdef".toList.zip (List.range 16), p.1.toNat = n.1 := by decide
  have nb : ¬ (48 ≤ b ∧ b ≤ 57 ∨ 65 ≤ b ∧ b ≤ 70 ∨ 97 ≤ b ∧ b ≤ 102) := by
    intro hn
    obtain ⟨⟨c, v⟩, hm, hc⟩ := key ⟨b, by omega⟩ hn
    rcases List.mem_append.1 hm with hm | hm
    · exact hb c v (Or.inl hm) hc
    · exact hb c v (Or.inr hm) hc
  have hs : hexLoop (b :: bytes s) = some none := by
    simp only [hexLoop, hl]
    unfold hexStep
    rw [if_neg (by unfold intMax; omega), if_neg (by omega), if_neg (by omega), if_neg (by omega)]
  rw [stringToHex_all, hexLoop_stop pre hs]
  intro c hc
  rcases List.mem_append.1 hc with hc | hc
  · exact hp c hc
  · rcases List.mem_cons.1 hc with rfl | hc
    · exact hb0
    · exact bytes_ne_zero h c hc

/-- **C148.** A negative length gives zero, unread; a length beyond the memory has no result; a length of zero is the whole text. -/
theorem C148_hex_length (s : List Nat) (n : Int) : (n < 0 → stringToHex s n = some 0) ∧ ((s.length : Int) < n → stringToHex s n = none) := by
  constructor
  · intro h
    unfold stringToHex
    simp only [if_neg (show ¬ n = 0 by omega), if_pos h]
    rfl
  · intro h
    unfold stringToHex
    simp only [if_neg (show ¬ n = 0 by omega), if_neg (show ¬ n < 0 by omega), if_pos (show s.length < n.toNat by omega)]

/-- A text with letters and other characters, then memory after the terminator. -/
example : toLower (bytes "ARS343 (b)".toList ++ 0 :: [65, 66]) = some (bytes "ars343 (b)".toList ++ 0 :: [65, 66]) :=
  ((C148_case _ _).1 (by unfold Text; decide)).1

/-- A word after white space, before more. -/
example : ignoreWhitespace (bytes " \t".toList ++ 97 :: [98, 32, 0]) = some 2 ∧ findWhitespace (bytes "ab".toList ++ 32 :: [0]) = some 2 :=
  ⟨C148_ignore _ (by simp [Blank]) 97 (by rintro c (rfl | rfl | rfl | rfl) <;> decide) _,
    C148_find _ (by simp [Blank]) 32 (Or.inr ⟨' ', by simp [Blank], rfl⟩) _⟩

/-- The text "1f" is 241, as if "f1" were written. -/
example : stringToHex (bytes "1f".toList ++ 0 :: []) 0 = some 241 :=
  ((C148_hex (values := [1, 15]) (.cons (Or.inl (by decide)) (.cons (Or.inr (by decide)) .nil)) []).1 (by decide)).1

/-- The text "1g2" is refused. -/
example : stringToHex ([49] ++ 103 :: bytes "2".toList ++ 0 :: []) 0 = some (-1) :=
  C148_hex_bad [49] (by decide) 103 (by decide) (by
    intro c v h e
    obtain ⟨-, -, -, h | h, -⟩ := hexStep_digit h 0 <;> simp [hexStep, intMax, e] at h) (values := [2]) (.cons (Or.inl (by decide)) .nil) (by decide) []

end Verif.Base.Strings
