/- Helper lemmas for the text conversions of `Time`. -/
import Verif.Time.StringModel
import Verif.Time.Lemmas

namespace Verif.TimeObj

theorem digit_props (n : Nat) (h : n < 10) :
    isDigit (digitChar n) = true ∧ (digitChar n).toNat - 48 = n ∧ isSpace (digitChar n) = false := by
  interval_cases n <;> decide

/-- All characters are digits. -/
def AllDigits (s : List Char) : Prop := ∀ c ∈ s, isDigit c = true

theorem atoiDigits_append (acc : Nat) (s r : List Char) (h : AllDigits s) :
    atoiDigits acc (s ++ r) = atoiDigits (atoiDigits acc s) r := by
  induction s generalizing acc with
  | nil => rfl
  | cons c cs ih =>
    have hc : isDigit c = true := h c (by simp)
    simp only [List.cons_append, atoiDigits, hc, if_true]
    exact ih _ (fun c' h' => h c' (by simp [h']))

theorem natStr_digits (n : Nat) : AllDigits (natStr n) := by
  induction n using Nat.strongRecOn with
  | ind n ih =>
    unfold natStr
    split_ifs with h
    · intro c hc; simp at hc; subst hc; exact (digit_props n h).1
    · intro c hc
      simp at hc
      rcases hc with hc | hc
      · exact ih (n / 10) (by omega) c hc
      · subst hc; exact (digit_props (n % 10) (by omega)).1

theorem natStr_val (n acc : Nat) : atoiDigits acc (natStr n) = acc * 10 ^ (natStr n).length + n := by
  induction n using Nat.strongRecOn generalizing acc with
  | ind n ih =>
    unfold natStr
    split_ifs with h
    · have := digit_props n h
      simp [atoiDigits, this.1, this.2.1]
    · have := digit_props (n % 10) (by omega)
      rw [atoiDigits_append _ _ _ (natStr_digits _), ih (n / 10) (by omega)]
      simp only [atoiDigits, this.1, if_true, this.2.1, List.length_append, List.length_singleton]
      rw [pow_succ, ← Nat.mul_assoc]
      generalize acc * 10 ^ (natStr (n / 10)).length = p
      omega

theorem natStr_length (n w : Nat) (hw : 0 < w) (h : n < 10 ^ w) : (natStr n).length ≤ w := by
  induction n using Nat.strongRecOn generalizing w with
  | ind n ih =>
    unfold natStr
    split_ifs with h10
    · simp; omega
    · simp only [List.length_append, List.length_singleton]
      obtain ⟨v, rfl⟩ : ∃ v, w = v + 1 := ⟨w - 1, by omega⟩
      have hv : 0 < v := by
        rcases Nat.eq_zero_or_pos v with h0 | h0
        · subst h0; simp at h; omega
        · exact h0
      rw [pow_succ] at h
      have := ih (n / 10) (by omega) v hv (by omega)
      omega

theorem natStr_ne_nil (n : Nat) : natStr n ≠ [] := by
  unfold natStr; split_ifs <;> simp

theorem fmtPad_nonneg (w : Nat) (n : Int) (h : 0 ≤ n) :
    fmtPad w n = List.replicate (w - (natStr n.toNat).length) '0' ++ natStr n.toNat := by
  unfold fmtPad; rw [if_neg (by omega)]

theorem fmtPad_digits (w : Nat) (n : Int) (h : 0 ≤ n) : AllDigits (fmtPad w n) := by
  rw [fmtPad_nonneg w n h]
  intro c hc
  rw [List.mem_append] at hc
  rcases hc with hc | hc
  · rw [(List.mem_replicate.mp hc).2]; decide
  · exact natStr_digits _ c hc

theorem fmtPad_ne_nil (w : Nat) (n : Int) (h : 0 ≤ n) : fmtPad w n ≠ [] := by
  rw [fmtPad_nonneg w n h]
  intro hc
  exact natStr_ne_nil _ (List.append_eq_nil_iff.mp hc).2

theorem fmtPad_length (w : Nat) (n : Int) (hw : 0 < w) (h : 0 ≤ n) (h2 : n < 10 ^ w) :
    (fmtPad w n).length = w := by
  rw [fmtPad_nonneg w n h]
  have h3 : n.toNat < 10 ^ w := by
    have : ((10 ^ w : Nat) : Int) = (10 : Int) ^ w := by push_cast; rfl
    omega
  have := natStr_length n.toNat w hw h3
  simp; omega

theorem atoiDigits_replicate (k : Nat) (s : List Char) :
    atoiDigits 0 (List.replicate k '0' ++ s) = atoiDigits 0 s := by
  induction k with
  | zero => rfl
  | succ k ih =>
    rw [List.replicate_succ, List.cons_append, atoiDigits]
    have h1 : isDigit '0' = true := by decide
    have h2 : ('0' : Char).toNat - 48 = 0 := by decide
    rw [if_pos h1, h2]; exact ih

theorem isDigit_not_space (c : Char) (h : isDigit c = true) : isSpace c = false ∧ c ≠ '-' ∧ c ≠ '+' := by
  unfold isDigit at h
  simp only [Bool.and_eq_true, decide_eq_true_eq] at h
  refine ⟨?_, ?_, ?_⟩
  · unfold isSpace
    have h1 : c ≠ ' ' := by rintro rfl; revert h; decide
    simp [h1]; omega
  · rintro rfl; revert h; decide
  · rintro rfl; revert h; decide

/-- `atoi` of a text starting with a digit. -/
theorem atoi_digit (s : List Char) (c : Char) (cs : List Char) (hs : s = c :: cs) (h : isDigit c = true) :
    atoi s = (atoiDigits 0 s : Int) := by
  subst hs
  obtain ⟨h1, h2, h3⟩ := isDigit_not_space c h
  unfold atoi
  have e : List.dropWhile isSpace (c :: cs) = c :: cs := by rw [List.dropWhile_cons]; simp [h1]
  rw [e]
  split
  · rename_i heq; simp at heq; exact absurd heq.1 h2
  · rename_i heq; simp at heq; exact absurd heq.1 h3
  · rfl

/-- The text does not continue with a digit. -/
def NoDigit : List Char → Prop
  | [] => True
  | c :: _ => isDigit c = false

theorem atoi_fmtPad (w : Nat) (n : Int) (r : List Char) (h : 0 ≤ n) (hr : NoDigit r) :
    atoi (fmtPad w n ++ r) = n := by
  have hd := fmtPad_digits w n h
  obtain ⟨c, cs, hcs⟩ := List.exists_cons_of_ne_nil (fmtPad_ne_nil w n h)
  have hc : isDigit c = true := hd c (by rw [hcs]; simp)
  rw [atoi_digit _ c (cs ++ r) (by rw [hcs]; rfl) hc, atoiDigits_append _ _ _ hd]
  rw [fmtPad_nonneg w n h, atoiDigits_replicate, natStr_val]
  cases r with
  | nil => simp [atoiDigits]; omega
  | cons a b =>
    have : isDigit a = false := hr
    simp [atoiDigits, this]; omega

theorem scanLoop_digits (z : Scan) (s r : List Char) (h : AllDigits s) :
    scanLoop z (s ++ r) = scanLoop z r := by
  induction s with
  | nil => rfl
  | cons c cs ih =>
    have hc : isDigit c = true := h c (by simp)
    rw [List.cons_append, scanLoop, if_pos hc]
    exact ih (fun c' h' => h c' (by simp [h']))

theorem scanLoop_field (z z' : Scan) (s : List Char) (c : Char) (r : List Char) (h : AllDigits s)
    (hc : isDigit c = false) (hz : scanStep z c r = .ok z') : scanLoop z (s ++ c :: r) = scanLoop z' r := by
  rw [scanLoop_digits z s _ h, scanLoop, if_neg (by simp [hc]), hz]

theorem scanLoop_end (z : Scan) (s : List Char) (h : AllDigits s) : scanLoop z s = .ok z := by
  have := scanLoop_digits z s [] h
  rw [List.append_nil] at this
  rw [this]; rfl

theorem append_ne_nil_of_fmt (w : Nat) (n : Int) (r : List Char) (h : 0 ≤ n) : fmtPad w n ++ r ≠ [] := by
  intro hc; exact fmtPad_ne_nil w n h (List.append_eq_nil_iff.mp hc).1

theorem verify_of_valid (t : Time) (hc : t.cal = .noLeap ∨ t.cal = .standard)
    (hv : ValidFor (leapRule t.cal) t) (hy : 0 ≤ t.year ∧ t.year ≤ 9999) : verify t = .ok () := by
  obtain ⟨v1, v2, v3, v4, v5, v6, v7, v8⟩ := hv
  unfold verify
  rw [if_pos hc]
  simp only
  rw [dpm_eq _ _ v1 v2]
  rw [if_neg (by omega), if_neg (by omega), if_neg (by omega), if_neg (by omega), if_neg (by omega)]

theorem drop_fmt (k w : Nat) (n : Int) (c : Char) (r : List Char) (hw : 0 < w) (h : 0 ≤ n) (h2 : n < 10 ^ w) :
    (fmtPad w n ++ c :: r).drop (w + 1 + k) = r.drop k := by
  have hl := fmtPad_length w n hw h h2
  rw [List.drop_append]
  rw [hl, List.drop_eq_nil_of_le (by rw [hl]; omega)]
  have : w + 1 + k - w = k + 1 := by omega
  rw [this]; rfl

theorem fromLong_toLong (t r : Time) (hc : t.cal = .noLeap ∨ t.cal = .standard)
    (hv : ValidFor (leapRule t.cal) t) (hy : 0 ≤ t.year ∧ t.year ≤ 9999) (ht : t.typ = .fixed)
    (hr : r.cal = t.cal ∧ r.typ = .fixed) :
    ∃ s, toLongString t = .ok s ∧ fromLongString r s = .ok t := by
  have hv' := hv
  obtain ⟨v1, v2, v3, v4, v5, v6, v7, v8⟩ := hv
  have hd : t.day < 31 := by
    rw [← dpm_eq _ _ v1 v2] at v4
    have : dpm (leapRule t.cal t.year) t.month ≤ 31 := by unfold dpm; split_ifs <;> omega
    omega
  refine ⟨_, by unfold toLongString; rw [if_neg (by simp [ht])], ?_⟩
  · unfold fromLongString
    have l1 := fmtPad_length 4 t.year (by omega) (by omega) (by norm_num; omega)
    have l2 := fmtPad_length 2 (t.month + 1) (by omega) (by omega) (by norm_num; omega)
    have l3 := fmtPad_length 2 (t.day + 1) (by omega) (by omega) (by norm_num; omega)
    have l4 := fmtPad_length 5 t.second (by omega) (by omega) (by norm_num; omega)
    have l5 := fmtPad_length 6 t.usec (by omega) (by omega) (by norm_num; omega)
    rw [if_neg (by simp [l1, l2, l3, l4, l5])]
    simp only
    have d5 : ∀ a : List Char, (fmtPad 4 t.year ++ '-' :: a).drop 5 = a := fun a =>
      drop_fmt 0 4 t.year '-' a (by omega) (by omega) (by norm_num; omega)
    have d8 : ∀ a : List Char, (fmtPad 4 t.year ++ '-' :: (fmtPad 2 (t.month + 1) ++ '-' :: a)).drop 8 = a :=
      fun a => (drop_fmt 3 4 t.year '-' _ (by omega) (by omega) (by norm_num; omega)).trans
        (drop_fmt 0 2 (t.month + 1) '-' a (by omega) (by omega) (by norm_num; omega))
    have d11 : ∀ a : List Char, (fmtPad 4 t.year ++ '-' :: (fmtPad 2 (t.month + 1) ++ '-' ::
        (fmtPad 2 (t.day + 1) ++ '-' :: a))).drop 11 = a :=
      fun a => (drop_fmt 6 4 t.year '-' _ (by omega) (by omega) (by norm_num; omega)).trans
        ((drop_fmt 3 2 (t.month + 1) '-' _ (by omega) (by omega) (by norm_num; omega)).trans
        (drop_fmt 0 2 (t.day + 1) '-' a (by omega) (by omega) (by norm_num; omega)))
    have d17 : ∀ a : List Char, (fmtPad 4 t.year ++ '-' :: (fmtPad 2 (t.month + 1) ++ '-' ::
        (fmtPad 2 (t.day + 1) ++ '-' :: (fmtPad 5 t.second ++ '-' :: a)))).drop 17 = a :=
      fun a => (drop_fmt 12 4 t.year '-' _ (by omega) (by omega) (by norm_num; omega)).trans
        ((drop_fmt 9 2 (t.month + 1) '-' _ (by omega) (by omega) (by norm_num; omega)).trans
        ((drop_fmt 6 2 (t.day + 1) '-' _ (by omega) (by omega) (by norm_num; omega)).trans
        (drop_fmt 0 5 t.second '-' a (by omega) (by omega) (by norm_num; omega))))
    rw [d5, d8, d11, d17]
    rw [atoi_fmtPad 4 _ _ (by omega) (by exact rfl), atoi_fmtPad 2 _ _ (by omega) (by exact rfl),
      atoi_fmtPad 2 _ _ (by omega) (by exact rfl), atoi_fmtPad 5 _ _ (by omega) (by exact rfl)]
    have e6 := atoi_fmtPad 6 t.usec [] (by omega) trivial
    rw [List.append_nil] at e6
    rw [e6]
    have et : (⟨t.year, t.month + 1 - 1, t.day + 1 - 1, t.second, t.usec, r.cal, r.typ⟩ : Time) = t := by
      obtain ⟨a, b, c, d, e, f, g⟩ := t
      obtain ⟨a', b', c', d', e', f', g'⟩ := r
      simp only at hr ht
      simp only [Time.mk.injEq]
      refine ⟨trivial, by omega, by omega, trivial, trivial, hr.1, by rw [hr.2, ht]⟩
    rw [et, verify_of_valid t hc hv' hy]


theorem scan_year (z : Scan) (v : Int) (r : List Char) (hv : 0 ≤ v) (hcur : z.cur = freeField v 'y' ++ r)
    (hst : z.st = .free ∨ (z.st = .date ∧ z.moved = false)) (hn : z.year = none) :
    ∃ z', scanLoop z (freeField v 'y' ++ r) = scanLoop z' r ∧ z'.cur = r ∧
      (z'.st = .free ∨ (z'.st = .date ∧ z'.moved = false)) ∧
      optAtoi z'.year = v ∧ optAtoiBased .free z'.year = v ∧ (v ≠ 0 ∨ z.st = .free → z'.st = .free) ∧
      z'.month = z.month ∧ z'.day = z.day ∧ z'.hour = z.hour ∧ z'.minute = z.minute ∧ z'.second = z.second ∧ z'.usec = z.usec := by
  by_cases h0 : v = 0
  · subst h0
    refine ⟨z, ?_, ?_, hst, ?_, ?_, ?_, ?_⟩
    · rfl
    · rw [hcur]; rfl
    · rw [hn]; rfl
    · rw [hn]; rfl
    · intro h; exact h.resolve_left (by simp)
    · simp
  · have e : freeField v 'y' ++ r = fmtInt v ++ 'y' :: r := by
      unfold freeField; rw [if_pos h0]; simp
    rw [e] at hcur ⊢
    have hd := fmtPad_digits 0 v hv
    have ha := atoi_fmtPad 0 v ('y' :: r) hv rfl
    refine ⟨⟨some z.cur, z.month, z.day, z.hour, z.minute, z.second, z.usec, .free, r, true⟩, ?_, rfl, Or.inl rfl, ?_, ?_, ?_, ?_⟩
    · apply scanLoop_field z _ _ _ _ hd (by decide)
      unfold scanStep
      have t1 : z.st ≠ .time := by rcases hst with h | h <;> simp [h]
      have t2 : ¬ (z.st = .date ∧ z.moved = true) := by rcases hst with h | h <;> simp [h]
      simp [t1, t2, hn]
    · simp only [optAtoi, hcur]; exact ha
    · simp only [optAtoiBased, hcur, if_true]; exact ha
    · intro _; rfl
    · simp

theorem scan_month (z : Scan) (v : Int) (r : List Char) (hv : 0 ≤ v) (hcur : z.cur = freeField v 'M' ++ r)
    (hst : z.st = .free ∨ (z.st = .date ∧ z.moved = false)) (hn : z.month = none) :
    ∃ z', scanLoop z (freeField v 'M' ++ r) = scanLoop z' r ∧ z'.cur = r ∧
      (z'.st = .free ∨ (z'.st = .date ∧ z'.moved = false)) ∧
      optAtoi z'.month = v ∧ optAtoiBased .free z'.month = v ∧ (v ≠ 0 ∨ z.st = .free → z'.st = .free) ∧
      z'.year = z.year ∧ z'.day = z.day ∧ z'.hour = z.hour ∧ z'.minute = z.minute ∧ z'.second = z.second ∧ z'.usec = z.usec := by
  by_cases h0 : v = 0
  · subst h0
    refine ⟨z, ?_, ?_, hst, ?_, ?_, ?_, ?_⟩
    · rfl
    · rw [hcur]; rfl
    · rw [hn]; rfl
    · rw [hn]; rfl
    · intro h; exact h.resolve_left (by simp)
    · simp
  · have e : freeField v 'M' ++ r = fmtInt v ++ 'M' :: r := by
      unfold freeField; rw [if_pos h0]; simp
    rw [e] at hcur ⊢
    have hd := fmtPad_digits 0 v hv
    have ha := atoi_fmtPad 0 v ('M' :: r) hv rfl
    refine ⟨⟨z.year, some z.cur, z.day, z.hour, z.minute, z.second, z.usec, .free, r, true⟩, ?_, rfl, Or.inl rfl, ?_, ?_, ?_, ?_⟩
    · apply scanLoop_field z _ _ _ _ hd (by decide)
      unfold scanStep
      have t1 : z.st ≠ .time := by rcases hst with h | h <;> simp [h]
      have t2 : ¬ (z.st = .date ∧ z.moved = true) := by rcases hst with h | h <;> simp [h]
      simp [t1, t2, hn]
    · simp only [optAtoi, hcur]; exact ha
    · simp only [optAtoiBased, hcur, if_true]; exact ha
    · intro _; rfl
    · simp

theorem scan_day (z : Scan) (v : Int) (r : List Char) (hv : 0 ≤ v) (hcur : z.cur = freeField v 'd' ++ r)
    (hst : z.st = .free ∨ (z.st = .date ∧ z.moved = false)) (hn : z.day = none) :
    ∃ z', scanLoop z (freeField v 'd' ++ r) = scanLoop z' r ∧ z'.cur = r ∧
      (z'.st = .free ∨ (z'.st = .date ∧ z'.moved = false)) ∧
      optAtoi z'.day = v ∧ optAtoiBased .free z'.day = v ∧ (v ≠ 0 ∨ z.st = .free → z'.st = .free) ∧
      z'.year = z.year ∧ z'.month = z.month ∧ z'.hour = z.hour ∧ z'.minute = z.minute ∧ z'.second = z.second ∧ z'.usec = z.usec := by
  by_cases h0 : v = 0
  · subst h0
    refine ⟨z, ?_, ?_, hst, ?_, ?_, ?_, ?_⟩
    · rfl
    · rw [hcur]; rfl
    · rw [hn]; rfl
    · rw [hn]; rfl
    · intro h; exact h.resolve_left (by simp)
    · simp
  · have e : freeField v 'd' ++ r = fmtInt v ++ 'd' :: r := by
      unfold freeField; rw [if_pos h0]; simp
    rw [e] at hcur ⊢
    have hd := fmtPad_digits 0 v hv
    have ha := atoi_fmtPad 0 v ('d' :: r) hv rfl
    refine ⟨⟨z.year, z.month, some z.cur, z.hour, z.minute, z.second, z.usec, .free, r, true⟩, ?_, rfl, Or.inl rfl, ?_, ?_, ?_, ?_⟩
    · apply scanLoop_field z _ _ _ _ hd (by decide)
      unfold scanStep
      have t1 : z.st ≠ .time := by rcases hst with h | h <;> simp [h]
      have t2 : ¬ (z.st = .date ∧ z.moved = true) := by rcases hst with h | h <;> simp [h]
      simp [t1, t2, hn]
    · simp only [optAtoi, hcur]; exact ha
    · simp only [optAtoiBased, hcur, if_true]; exact ha
    · intro _; rfl
    · simp

theorem scan_second (z : Scan) (v : Int) (r : List Char) (hv : 0 ≤ v) (hcur : z.cur = freeField v 's' ++ r)
    (hst : z.st = .free ∨ (z.st = .date ∧ z.moved = false)) (hn : z.second = none) :
    ∃ z', scanLoop z (freeField v 's' ++ r) = scanLoop z' r ∧ z'.cur = r ∧
      (z'.st = .free ∨ (z'.st = .date ∧ z'.moved = false)) ∧
      optAtoi z'.second = v ∧ optAtoiBased .free z'.second = v ∧ (v ≠ 0 ∨ z.st = .free → z'.st = .free) ∧
      z'.year = z.year ∧ z'.month = z.month ∧ z'.day = z.day ∧ z'.hour = z.hour ∧ z'.minute = z.minute ∧ z'.usec = z.usec := by
  by_cases h0 : v = 0
  · subst h0
    refine ⟨z, ?_, ?_, hst, ?_, ?_, ?_, ?_⟩
    · rfl
    · rw [hcur]; rfl
    · rw [hn]; rfl
    · rw [hn]; rfl
    · intro h; exact h.resolve_left (by simp)
    · simp
  · have e : freeField v 's' ++ r = fmtInt v ++ 's' :: r := by
      unfold freeField; rw [if_pos h0]; simp
    rw [e] at hcur ⊢
    have hd := fmtPad_digits 0 v hv
    have ha := atoi_fmtPad 0 v ('s' :: r) hv rfl
    refine ⟨⟨z.year, z.month, z.day, z.hour, z.minute, some z.cur, z.usec, .free, r, true⟩, ?_, rfl, Or.inl rfl, ?_, ?_, ?_, ?_⟩
    · apply scanLoop_field z _ _ _ _ hd (by decide)
      unfold scanStep
      have t1 : z.st ≠ .time := by rcases hst with h | h <;> simp [h]
      have t2 : ¬ (z.st = .date ∧ z.moved = true) := by rcases hst with h | h <;> simp [h]
      simp [t1, t2, hn]
    · simp only [optAtoi, hcur]; exact ha
    · simp only [optAtoiBased, hcur, if_true]; exact ha
    · intro _; rfl
    · simp

theorem scan_usec (z : Scan) (v : Int) (r : List Char) (hv : 0 ≤ v) (hcur : z.cur = freeField v 'u' ++ r)
    (hst : z.st = .free ∨ (z.st = .date ∧ z.moved = false)) (hn : z.usec = none) :
    ∃ z', scanLoop z (freeField v 'u' ++ r) = scanLoop z' r ∧ z'.cur = r ∧
      (z'.st = .free ∨ (z'.st = .date ∧ z'.moved = false)) ∧
      optAtoi z'.usec = v ∧ optAtoiBased .free z'.usec = v ∧ (v ≠ 0 ∨ z.st = .free → z'.st = .free) ∧
      z'.year = z.year ∧ z'.month = z.month ∧ z'.day = z.day ∧ z'.hour = z.hour ∧ z'.minute = z.minute ∧ z'.second = z.second := by
  by_cases h0 : v = 0
  · subst h0
    refine ⟨z, ?_, ?_, hst, ?_, ?_, ?_, ?_⟩
    · rfl
    · rw [hcur]; rfl
    · rw [hn]; rfl
    · rw [hn]; rfl
    · intro h; exact h.resolve_left (by simp)
    · simp
  · have e : freeField v 'u' ++ r = fmtInt v ++ 'u' :: r := by
      unfold freeField; rw [if_pos h0]; simp
    rw [e] at hcur ⊢
    have hd := fmtPad_digits 0 v hv
    have ha := atoi_fmtPad 0 v ('u' :: r) hv rfl
    refine ⟨⟨z.year, z.month, z.day, z.hour, z.minute, z.second, some z.cur, .free, r, true⟩, ?_, rfl, Or.inl rfl, ?_, ?_, ?_, ?_⟩
    · apply scanLoop_field z _ _ _ _ hd (by decide)
      unfold scanStep
      have t1 : z.st ≠ .time := by rcases hst with h | h <;> simp [h]
      have t2 : ¬ (z.st = .date ∧ z.moved = true) := by rcases hst with h | h <;> simp [h]
      simp [t1, t2, hn]
    · simp only [optAtoi, hcur]; exact ha
    · simp only [optAtoiBased, hcur, if_true]; exact ha
    · intro _; rfl
    · simp

/-- Parsing the free text of a duration with non-negative fields, not all zero, yields the normalised
duration. -/
theorem fromFormatted_toFree (t r : Time) (h1 : 0 ≤ t.year) (h2 : 0 ≤ t.month) (h3 : 0 ≤ t.day)
    (h4 : 0 ≤ t.second) (h5 : 0 ≤ t.usec) (hz : isZero t = false) :
    fromFormattedString r (toFreeString t)
      = normalize ⟨t.year, t.month, t.day, t.second, t.usec, r.cal, .delta⟩ := by
  have hnz : t.year ≠ 0 ∨ t.month ≠ 0 ∨ t.day ≠ 0 ∨ t.second ≠ 0 ∨ t.usec ≠ 0 := by
    unfold isZero at hz
    by_contra hcon
    simp only [not_or, not_not] at hcon
    rw [if_pos hcon] at hz; cases hz
  have hne : ∀ v : Int, ∀ c : Char, freeField v c = [] → v = 0 := by
    intro v c h
    unfold freeField at h
    by_contra h0
    rw [if_pos h0] at h; simp at h
  have hs : toFreeString t ≠ [] := by
    intro hcon
    unfold toFreeString at hcon
    simp only [List.append_eq_nil_iff] at hcon
    obtain ⟨⟨⟨⟨a, b⟩, c⟩, d⟩, e⟩ := hcon
    have := hne _ _ a; have := hne _ _ b; have := hne _ _ c; have := hne _ _ d; have := hne _ _ e
    omega
  have e0 : toFreeString t = freeField t.year 'y' ++ (freeField t.month 'M' ++ (freeField t.day 'd' ++
      (freeField t.second 's' ++ (freeField t.usec 'u' ++ [])))) := by
    unfold toFreeString; simp
  unfold fromFormattedString
  rw [if_neg hs]
  obtain ⟨z1, a1, a2, a3, a4, a4', a5, a6, a7, a8, a9, a10, a11⟩ :=
    scan_year { cur := toFreeString t } t.year _ h1 e0 (Or.inr ⟨rfl, rfl⟩) rfl
  obtain ⟨z2, b1, b2, b3, b4, b4', b5, b6, b7, b8, b9, b10, b11⟩ := scan_month z1 t.month _ h2 a2 a3 (by rw [a6])
  obtain ⟨z3, c1, c2, c3, c4, c4', c5, c6, c7, c8, c9, c10, c11⟩ := scan_day z2 t.day _ h3 b2 b3 (by rw [b7, a7])
  obtain ⟨z4, d1, d2, d3, d4, d4', d5, d6, d7, d8, d9, d10, d11⟩ :=
    scan_second z3 t.second _ h4 c2 c3 (by rw [c10, b10, a10])
  obtain ⟨z5, f1, f2, f3, f4, f4', f5, f6, f7, f8, f9, f10, f11⟩ :=
    scan_usec z4 t.usec _ h5 d2 d3 (by rw [d11, c11, b11, a11])
  have hl : scanLoop { cur := toFreeString t } (toFreeString t) = .ok z5 := by
    conv_lhs => rw [show scanLoop { cur := toFreeString t } (toFreeString t)
      = scanLoop { cur := toFreeString t } (freeField t.year 'y' ++ (freeField t.month 'M' ++ (freeField t.day 'd' ++
      (freeField t.second 's' ++ (freeField t.usec 'u' ++ []))))) from congrArg _ e0]
    rw [a1, b1, c1, d1, f1]; rfl
  rw [hl]
  have hst : z5.st = .free := by
    rcases hnz with h | h | h | h | h
    · exact f5 (Or.inr (d5 (Or.inr (c5 (Or.inr (b5 (Or.inr (a5 (Or.inl h)))))))))
    · exact f5 (Or.inr (d5 (Or.inr (c5 (Or.inr (b5 (Or.inl h)))))))
    · exact f5 (Or.inr (d5 (Or.inr (c5 (Or.inl h)))))
    · exact f5 (Or.inr (d5 (Or.inl h)))
    · exact f5 (Or.inl h)
  have hfin : scanFinish z5 = .ok z5 := by unfold scanFinish; rw [if_pos f2]
  simp only [hfin]
  rw [hst]
  have y1 : optAtoi z5.year = t.year := by rw [f6, d6, c6, b6, a4]
  have y2 : optAtoiBased .free z5.month = t.month := by rw [f7, d7, c7, b4']
  have y3 : optAtoiBased .free z5.day = t.day := by rw [f8, d8, c4']
  have y4 : optAtoi z5.hour = 0 := by rw [f9, d9, c8, b8, a8]; rfl
  have y5 : optAtoi z5.minute = 0 := by rw [f10, d10, c9, b9, a9]; rfl
  have y6 : optAtoi z5.second = t.second := by rw [f11, d4]
  rw [y1, y2, y3, y4, y5, y6, f4]
  simp

theorem valid_day_lt (t : Time) (hv : ValidFor (leapRule t.cal) t) : t.day < 31 := by
  obtain ⟨v1, v2, v3, v4, -⟩ := hv
  rw [← dpm_eq _ _ v1 v2] at v4
  have : dpm (leapRule t.cal t.year) t.month ≤ 31 := by unfold dpm; split_ifs <;> omega
  omega

theorem fromFormatted_toString (t r : Time) (hc : t.cal = .noLeap ∨ t.cal = .standard)
    (hv : ValidFor (leapRule t.cal) t) (hy : 0 ≤ t.year) (ht : t.typ = .fixed) (hr : r.cal = t.cal) :
    ∃ s, toStringOp t = .ok s ∧ fromFormattedString r s = .ok t := by
  have hn := normalize_of_valid t hc hv
  obtain ⟨v1, v2, v3, v4, v5, v6, v7, v8⟩ := hv
  have q1 : t.second.tdiv 3600 = t.second / 3600 := Int.tdiv_eq_ediv_of_nonneg v5
  have q2 : t.second.tmod 3600 = t.second % 3600 := Int.tmod_eq_emod_of_nonneg v5
  have q3 : (t.second % 3600).tdiv 60 = t.second % 3600 / 60 := Int.tdiv_eq_ediv_of_nonneg (by omega)
  have q4 : t.second.tmod 60 = t.second % 60 := Int.tmod_eq_emod_of_nonneg v5
  refine ⟨_, by unfold toStringOp; rw [if_neg (by simp [ht])], ?_⟩
  rw [q1, q2, q3, q4]
  have D1 := fmtPad_digits 4 t.year (by omega)
  have D2 := fmtPad_digits 2 (t.month + 1) (by omega)
  have D3 := fmtPad_digits 2 (t.day + 1) (by omega)
  have D4 := fmtPad_digits 2 (t.second / 3600) (by omega)
  have D5 := fmtPad_digits 2 (t.second % 3600 / 60) (by omega)
  have D6 := fmtPad_digits 2 (t.second % 60) (by omega)
  have D7 := fmtPad_digits 6 t.usec (by omega)
  have N6 := fmtPad_ne_nil 2 (t.second % 60) (by omega)
  have N7 := fmtPad_ne_nil 6 t.usec (by omega)
  have A1 := atoi_fmtPad 4 t.year
  have A2 := atoi_fmtPad 2 (t.month + 1)
  have A3 := atoi_fmtPad 2 (t.day + 1)
  have A4 := atoi_fmtPad 2 (t.second / 3600)
  have A5 := atoi_fmtPad 2 (t.second % 3600 / 60)
  have A6 := atoi_fmtPad 2 (t.second % 60)
  have A7 := atoi_fmtPad 6 t.usec
  have hid : (⟨t.year, t.month + 1 - 1, t.day + 1 - 1,
      3600 * (t.second / 3600) + 60 * (t.second % 3600 / 60) + t.second % 60, t.usec, r.cal, .fixed⟩ : Time)
      = t := by
    obtain ⟨a, b, c, d, e, f, g⟩ := t
    simp only at hr ht
    simp only [Time.mk.injEq]
    refine ⟨trivial, by omega, by omega, by omega, trivial, hr, ht.symm⟩
  generalize fmtPad 4 t.year = P1 at *
  generalize fmtPad 2 (t.month + 1) = P2 at *
  generalize fmtPad 2 (t.day + 1) = P3 at *
  generalize fmtPad 2 (t.second / 3600) = P4 at *
  generalize fmtPad 2 (t.second % 3600 / 60) = P5 at *
  generalize fmtPad 2 (t.second % 60) = P6 at *
  generalize fmtPad 6 t.usec = P7 at *
  unfold fromFormattedString
  rw [if_neg (by simp)]
  rw [scanLoop_field _ _ P1 '-' _ D1 (by decide) (by simp only [scanStep]; simp; rfl)]
  rw [scanLoop_field _ _ P2 '-' _ D2 (by decide) (by simp only [scanStep]; simp; rfl)]
  rw [scanLoop_field _ _ P3 ' ' _ D3 (by decide) (by simp only [scanStep]; simp; rfl)]
  rw [scanLoop_field _ _ P4 ':' _ D4 (by decide) (by simp only [scanStep]; simp; rfl)]
  rw [scanLoop_field _ _ P5 ':' _ D5 (by decide) (by simp only [scanStep]; simp; rfl)]
  by_cases hu : t.usec = 0
  · rw [if_pos hu, List.append_nil, scanLoop_end _ P6 D6]
    have A6' := A6 [] (by omega) trivial
    rw [List.append_nil] at A6'
    simp only [scanFinish, if_neg N6]
    simp only [if_false, reduceCtorEq, if_true, optAtoi, optAtoiBased]
    rw [A1 _ (by omega) (by exact rfl), A2 _ (by omega) (by exact rfl), A3 _ (by omega) (by exact rfl),
      A4 _ (by omega) (by exact rfl), A5 _ (by omega) (by exact rfl), A6']
    rw [← hu]
    simp only [or_true, if_true]
    rw [hid]; exact hn
  · rw [if_neg hu]
    rw [scanLoop_field _ _ P6 '.' _ D6 (by decide) (by simp only [scanStep]; simp; rfl)]
    rw [scanLoop_end _ P7 D7]
    have A7' := A7 [] (by omega) trivial
    rw [List.append_nil] at A7'
    simp only [scanFinish, if_neg N7]
    simp only [if_false, reduceCtorEq, if_true, optAtoi, optAtoiBased]
    rw [A1 _ (by omega) (by exact rfl), A2 _ (by omega) (by exact rfl), A3 _ (by omega) (by exact rfl),
      A4 _ (by omega) (by exact rfl), A5 _ (by omega) (by exact rfl), A6 _ (by omega) (by exact rfl), A7']
    simp only [or_true, if_true]
    rw [hid]; exact hn

theorem fromFormatted_toShort (t r : Time) (hc : t.cal = .noLeap ∨ t.cal = .standard)
    (hv : ValidFor (leapRule t.cal) t) (hy : 0 ≤ t.year) (ht : t.typ = .fixed) (hr : r.cal = t.cal) :
    ∃ s, toShortString t = .ok s ∧ fromFormattedString r s = .ok { t with usec := 0 } := by
  have hn := normalize_of_valid { t with usec := 0 } hc (by
    obtain ⟨v1, v2, v3, v4, v5, v6, v7, v8⟩ := hv
    exact ⟨v1, v2, v3, v4, v5, v6, by simp, by simp⟩)
  obtain ⟨v1, v2, v3, v4, v5, v6, v7, v8⟩ := hv
  refine ⟨_, by unfold toShortString; rw [if_neg (by simp [ht])], ?_⟩
  have D1 := fmtPad_digits 4 t.year (by omega)
  have D2 := fmtPad_digits 2 (t.month + 1) (by omega)
  have D3 := fmtPad_digits 2 (t.day + 1) (by omega)
  have D4 := fmtPad_digits 5 t.second (by omega)
  have N4 := fmtPad_ne_nil 5 t.second (by omega)
  have A1 := atoi_fmtPad 4 t.year
  have A2 := atoi_fmtPad 2 (t.month + 1)
  have A3 := atoi_fmtPad 2 (t.day + 1)
  have A4 := atoi_fmtPad 5 t.second [] (by omega) trivial
  rw [List.append_nil] at A4
  generalize fmtPad 4 t.year = P1 at *
  generalize fmtPad 2 (t.month + 1) = P2 at *
  generalize fmtPad 2 (t.day + 1) = P3 at *
  generalize fmtPad 5 t.second = P4 at *
  unfold fromFormattedString
  rw [if_neg (by simp)]
  rw [scanLoop_field _ _ P1 '-' _ D1 (by decide) (by simp only [scanStep]; simp; rfl)]
  rw [scanLoop_field _ _ P2 '-' _ D2 (by decide) (by simp only [scanStep]; simp; rfl)]
  rw [scanLoop_field _ _ P3 '-' _ D3 (by decide) (by simp only [scanStep]; simp; rfl)]
  rw [scanLoop_end _ P4 D4]
  simp only [scanFinish, if_neg N4]
  simp only [if_false, reduceCtorEq, if_true, optAtoi, optAtoiBased]
  rw [A1 _ (by omega) (by exact rfl), A2 _ (by omega) (by exact rfl), A3 _ (by omega) (by exact rfl), A4]
  simp only [true_or, if_true]
  have hid : (⟨t.year, t.month + 1 - 1, t.day + 1 - 1, 3600 * 0 + 60 * 0 + t.second, 0, r.cal, .fixed⟩ : Time)
      = { t with usec := 0 } := by
    obtain ⟨a, b, c, d, e, f, g⟩ := t
    simp only at hr ht
    simp only [Time.mk.injEq]
    refine ⟨trivial, by omega, by omega, by omega, trivial, hr, ht.symm⟩
  rw [hid]; exact hn

theorem fromFormatted_days (n : Int) (h : 0 ≤ n) (r : Time) :
    fromFormattedString r (fmtInt n ++ ['d']) = normalize ⟨0, 0, n, 0, 0, r.cal, .delta⟩ := by
  have D1 := fmtPad_digits 0 n h
  have A1 := atoi_fmtPad 0 n ['d'] h rfl
  unfold fromFormattedString fmtInt
  rw [if_neg (by simp)]
  rw [scanLoop_field _ _ _ 'd' _ D1 (by decide) (by simp only [scanStep]; simp; rfl)]
  simp only [scanLoop, scanFinish, if_true, optAtoi, optAtoiBased, A1]
  simp

theorem fromFormatted_seconds (n : Int) (h : 0 ≤ n) (r : Time) :
    fromFormattedString r (fmtInt n ++ ['s']) = normalize ⟨0, 0, 0, n, 0, r.cal, .delta⟩ := by
  have D1 := fmtPad_digits 0 n h
  have A1 := atoi_fmtPad 0 n ['s'] h rfl
  unfold fromFormattedString fmtInt
  rw [if_neg (by simp)]
  rw [scanLoop_field _ _ _ 's' _ D1 (by decide) (by simp only [scanStep]; simp; rfl)]
  simp only [scanLoop, scanFinish, if_true, optAtoi, optAtoiBased, A1]
  simp

theorem fromFormatted_hms (h m s : Int) (h1 : 0 ≤ h) (h2 : 0 ≤ m) (h3 : 0 ≤ s) (r : Time) :
    fromFormattedString r (fmtInt h ++ 'h' :: (fmtInt m ++ 'm' :: (fmtInt s ++ ['s'])))
      = normalize ⟨0, 0, 0, 3600 * h + 60 * m + s, 0, r.cal, .delta⟩ := by
  have D1 := fmtPad_digits 0 h h1
  have D2 := fmtPad_digits 0 m h2
  have D3 := fmtPad_digits 0 s h3
  have A1 := atoi_fmtPad 0 h ('h' :: (fmtPad 0 m ++ 'm' :: (fmtPad 0 s ++ ['s']))) h1 rfl
  have A2 := atoi_fmtPad 0 m ('m' :: (fmtPad 0 s ++ ['s'])) h2 rfl
  have A3 := atoi_fmtPad 0 s ['s'] h3 rfl
  unfold fromFormattedString fmtInt
  rw [if_neg (by simp)]
  rw [scanLoop_field _ _ _ 'h' _ D1 (by decide) (by simp only [scanStep]; simp; rfl)]
  rw [scanLoop_field _ _ _ 'm' _ D2 (by decide) (by simp only [scanStep]; simp; rfl)]
  rw [scanLoop_field _ _ _ 's' _ D3 (by decide) (by simp only [scanStep]; simp; rfl)]
  simp only [scanLoop, scanFinish, if_true, optAtoi, optAtoiBased, A1, A2, A3]
  simp

theorem fromFormatted_minutes (t r : Time) (h m : Int) (hc : t.cal = .noLeap ∨ t.cal = .standard)
    (hv : ValidFor (leapRule t.cal) t) (hy : 0 ≤ t.year) (ht : t.typ = .fixed) (hr : r.cal = t.cal)
    (h0 : 0 ≤ h) (m0 : 0 ≤ m) (hs : t.second = 3600 * h + 60 * m) (hu : t.usec = 0) :
    ∃ d, toDateString t = .ok d ∧ fromFormattedString r (d ++ ' ' :: (fmtPad 2 h ++ ':' :: fmtPad 2 m)) = .ok t := by
  have hn := normalize_of_valid t hc hv
  obtain ⟨v1, v2, v3, v4, v5, v6, v7, v8⟩ := hv
  refine ⟨_, by unfold toDateString; rw [if_neg (by simp [ht])], ?_⟩
  have D1 := fmtPad_digits 4 t.year (by omega)
  have D2 := fmtPad_digits 2 (t.month + 1) (by omega)
  have D3 := fmtPad_digits 2 (t.day + 1) (by omega)
  have D4 := fmtPad_digits 2 h (by omega)
  have D5 := fmtPad_digits 2 m (by omega)
  have N5 := fmtPad_ne_nil 2 m (by omega)
  have A1 := atoi_fmtPad 4 t.year
  have A2 := atoi_fmtPad 2 (t.month + 1)
  have A3 := atoi_fmtPad 2 (t.day + 1)
  have A4 := atoi_fmtPad 2 h
  have A5 := atoi_fmtPad 2 m [] (by omega) trivial
  rw [List.append_nil] at A5
  have hid : (⟨t.year, t.month + 1 - 1, t.day + 1 - 1, 3600 * h + 60 * m + 0, 0, r.cal, .fixed⟩ : Time)
      = t := by
    obtain ⟨a, b, c, d, e, f, g⟩ := t
    simp only at hr ht hs hu
    simp only [Time.mk.injEq]
    refine ⟨trivial, by omega, by omega, by omega, hu.symm, hr, ht.symm⟩
  generalize fmtPad 4 t.year = P1 at *
  generalize fmtPad 2 (t.month + 1) = P2 at *
  generalize fmtPad 2 (t.day + 1) = P3 at *
  generalize fmtPad 2 h = P4 at *
  generalize fmtPad 2 m = P5 at *
  unfold fromFormattedString
  rw [if_neg (by simp)]
  rw [show P1 ++ '-' :: (P2 ++ '-' :: P3) ++ ' ' :: (P4 ++ ':' :: P5)
    = P1 ++ '-' :: (P2 ++ '-' :: (P3 ++ ' ' :: (P4 ++ ':' :: P5))) by simp]
  rw [scanLoop_field _ _ P1 '-' _ D1 (by decide) (by simp only [scanStep]; simp; rfl)]
  rw [scanLoop_field _ _ P2 '-' _ D2 (by decide) (by simp only [scanStep]; simp; rfl)]
  rw [scanLoop_field _ _ P3 ' ' _ D3 (by decide) (by simp only [scanStep]; simp; rfl)]
  rw [scanLoop_field _ _ P4 ':' _ D4 (by decide) (by simp only [scanStep]; simp; rfl)]
  rw [scanLoop_end _ P5 D5]
  simp only [scanFinish, if_neg N5]
  simp only [if_false, reduceCtorEq, if_true, optAtoi, optAtoiBased]
  rw [A1 _ (by omega) (by exact rfl), A2 _ (by omega) (by exact rfl), A3 _ (by omega) (by exact rfl),
    A4 _ (by omega) (by exact rfl), A5]
  simp only [or_true, if_true]
  rw [hid]; exact hn

theorem fromFormatted_date (t r : Time) (hc : t.cal = .noLeap ∨ t.cal = .standard)
    (hv : ValidFor (leapRule t.cal) t) (hy : 0 ≤ t.year) (ht : t.typ = .fixed) (hr : r.cal = t.cal)
    (hs : t.second = 0) (hu : t.usec = 0) :
    ∃ d, toDateString t = .ok d ∧ fromFormattedString r d = .ok t := by
  have hn := normalize_of_valid t hc hv
  obtain ⟨v1, v2, v3, v4, v5, v6, v7, v8⟩ := hv
  refine ⟨_, by unfold toDateString; rw [if_neg (by simp [ht])], ?_⟩
  have D1 := fmtPad_digits 4 t.year (by omega)
  have D2 := fmtPad_digits 2 (t.month + 1) (by omega)
  have D3 := fmtPad_digits 2 (t.day + 1) (by omega)
  have N3 := fmtPad_ne_nil 2 (t.day + 1) (by omega)
  have A1 := atoi_fmtPad 4 t.year
  have A2 := atoi_fmtPad 2 (t.month + 1)
  have A3 := atoi_fmtPad 2 (t.day + 1) [] (by omega) trivial
  rw [List.append_nil] at A3
  have hid : (⟨t.year, t.month + 1 - 1, t.day + 1 - 1, 3600 * 0 + 60 * 0 + 0, 0, r.cal, .fixed⟩ : Time)
      = t := by
    obtain ⟨a, b, c, d, e, f, g⟩ := t
    simp only at hr ht hs hu
    simp only [Time.mk.injEq]
    refine ⟨trivial, by omega, by omega, by omega, hu.symm, hr, ht.symm⟩
  generalize fmtPad 4 t.year = P1 at *
  generalize fmtPad 2 (t.month + 1) = P2 at *
  generalize fmtPad 2 (t.day + 1) = P3 at *
  unfold fromFormattedString
  rw [if_neg (by simp)]
  rw [scanLoop_field _ _ P1 '-' _ D1 (by decide) (by simp only [scanStep]; simp; rfl)]
  rw [scanLoop_field _ _ P2 '-' _ D2 (by decide) (by simp only [scanStep]; simp; rfl)]
  rw [scanLoop_end _ P3 D3]
  simp only [scanFinish, if_neg N3]
  simp only [if_false, reduceCtorEq, if_true, optAtoi, optAtoiBased]
  rw [A1 _ (by omega) (by exact rfl), A2 _ (by omega) (by exact rfl), A3]
  simp only [true_or, if_true]
  rw [hid]; exact hn

end Verif.TimeObj
