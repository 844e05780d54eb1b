/-
Symbolic execution of the drivers: every slot is tracked as a linear combination of the initial state and of the
evaluations of the two tendencies made so far.
-/
import Mathlib.Tactic.Module
import Mathlib.Tactic.Ring
import Mathlib.Tactic.FieldSimp
import Mathlib.Tactic.NormNum
import Mathlib.Tactic.Abel
import Verif.Steps.Spec

namespace Verif.Steps

section Basic
variable {K V W : Type*}

theorem run_append [Zero K] [DecidableEq K] (oV : Ops K V) (oW : Ops K W) (D : Dyn K V W) (p q : List (Cmd K))
    (d : Data V W) : run oV oW D (p ++ q) d = (run oV oW D p d).bind (run oV oW D q) := by
  induction p generalizing d with
  | nil => simp [run]
  | cons c cs ih => simp [run, ih, Option.bind_assoc]

/-- Slots as pairs. -/
def ofPairs (l : List (V × W)) : Data V W := ⟨l.map Prod.fst, l.map Prod.snd⟩

theorem get_ofPairs (l : List (V × W)) (i : Nat) : (ofPairs l).get i = l[i]? := by
  simp only [Data.get, ofPairs, List.getElem?_map]
  cases l[i]? <;> rfl

theorem put_ofPairs (l : List (V × W)) (i : Nat) (x : V × W) : (ofPairs l).put i x = ofPairs (l.set i x) := by
  simp [Data.put, ofPairs, List.map_set]

/-- Any data with as many tracer slots as state slots is a list of pairs. -/
theorem exists_ofPairs (d : Data V W) (n : Nat) (h1 : d.st.length = n) (h2 : d.tr.length = n) :
    ∃ l : List (V × W), l.length = n ∧ d = ofPairs l := by
  refine ⟨d.st.zip d.tr, by simp [h1, h2], ?_⟩
  obtain ⟨st, tr⟩ := d
  simp only [ofPairs, Data.mk.injEq] at *
  exact ⟨(List.map_fst_zip (by omega)).symm, (List.map_snd_zip (by omega)).symm⟩

theorem copyData_some {s t : Nat} {l : List V} {x : V} (hs : l[s]? = some x) (ht : t < l.length) :
    copyData (s : Int) (t : Int) l = some (l.set t x) := by
  unfold copyData
  rw [if_neg (by omega)]
  simp [hs, List.getElem?_eq_getElem ht]

variable [Field K] [DecidableEq K]

theorem run_copy2 (oV : Ops K V) (oW : Ops K W) (D : Dyn K V W) {s t : Nat} {l : List (V × W)} {x : V × W}
    (hs : l[s]? = some x) (ht : t < l.length) :
    run oV oW D (copy2 s t) (ofPairs l) = some (ofPairs (l.set t x)) := by
  have h1 : copyData (s : Int) (t : Int) (l.map Prod.fst) = some ((l.map Prod.fst).set t x.1) :=
    copyData_some (by simp [hs]) (by simpa using ht)
  have h2 : copyData (s : Int) (t : Int) (l.map Prod.snd) = some ((l.map Prod.snd).set t x.2) :=
    copyData_some (by simp [hs]) (by simpa using ht)
  simp [copy2, run, exec, ofPairs, h1, h2, List.map_set]

theorem run_copySS [Subsingleton W] (oV : Ops K V) (oW : Ops K W) (D : Dyn K V W) {s t : Nat} {l : List (V × W)}
    {x : V × W} (hs : l[s]? = some x) (ht : t < l.length) :
    run oV oW D (copySS s t) (ofPairs l) = some (ofPairs (l.set t x)) := by
  have h1 : copyData (s : Int) (t : Int) (l.map Prod.fst) = some ((l.map Prod.fst).set t x.1) :=
    copyData_some (by simp [hs]) (by simpa using ht)
  have hsx : ((l.map Prod.fst).set t x.1)[s]? = some x.1 := by
    rw [List.getElem?_set]
    split_ifs with h h'
    · rfl
    · exact absurd (by simpa using ht) h'
    · simp [hs]
  have h2 : copyData (s : Int) (t : Int) ((l.map Prod.fst).set t x.1) = some ((l.map Prod.fst).set t x.1) := by
    rw [copyData_some hsx (by simpa using ht)]
    simp
  have h3 : l.map Prod.snd = (l.set t x).map Prod.snd := by
    apply List.ext_getElem
    · simp
    · intro i _ _; exact Subsingleton.elim _ _
  simp only [copySS, run, exec, ofPairs, h1, h2, Option.map_some, Option.bind_some]
  rw [h3, List.map_set (f := Prod.fst)]

theorem run_post2 (oV : Ops K V) (oW : Ops K W) (D : Dyn K V W) {u : Nat} {l : List (V × W)} {x : V × W}
    (hu : l[u]? = some x) :
    run oV oW D (post2 u) (ofPairs l) = some (ofPairs (l.set u (D.postS x.1, D.postT x.2))) := by
  simp [post2, run, exec, ofPairs, hu, List.map_set]

omit [Field K] [DecidableEq K] in
theorem run_dyn (f : V × W → V × W → V × W) {a u : Nat}
    {l : List (V × W)} {x y : V × W} (ha : l[a]? = some x) (hu : l[u]? = some y) :
    dynCall f a u (ofPairs l) = some (ofPairs (l.set u (f x y))) := by
  simp [dynCall, get_ofPairs, ha, hu, put_ofPairs]

end Basic

/-! ### Linear combinations -/

section Comb
variable {K D : Type*} [Semiring K] [AddCommMonoid D] [Module K D]

@[simp] theorem dot_nil (l : List D) : dot ([] : List K) l = 0 := rfl
@[simp] theorem dot_nil' (l : List K) : dot l ([] : List D) = 0 := by cases l <;> rfl
@[simp] theorem dot_cons (a : K) (as : List K) (x : D) (xs : List D) :
    dot (a :: as) (x :: xs) = a • x + dot as xs := by simp [dot]

theorem dot_append (c : List K) (x y : List D) (h : c.length ≤ x.length) : dot c (x ++ y) = dot c x := by
  induction c generalizing x with
  | nil => simp
  | cons a as ih =>
    cases x with
    | nil => simp at h
    | cons z zs => simp only [List.cons_append, dot_cons]; rw [ih zs (by simpa using h)]

theorem combineFrom_dot [DecidableEq K] (slots : List D) (dest : Nat) (cs : List K) (m : Nat) (acc : D)
    (hlen : m + cs.length ≤ slots.length) :
    combineFrom (modOps K) dest slots m cs acc
      = acc + dot ((cs.zipIdx m).map fun p => if p.2 = dest then 0 else p.1) (slots.drop m) := by
  induction cs generalizing m acc with
  | nil => simp [combineFrom]
  | cons c cs ih =>
    have hm : m < slots.length := by simp at hlen; omega
    rw [combineFrom, ih _ _ (by simp at hlen; omega), List.drop_eq_getElem_cons hm]
    simp only [List.zipIdx_cons, List.map_cons, dot_cons]
    by_cases h1 : m = dest
    · simp [h1]
    · by_cases h2 : c = 0
      · simp [h1, h2]
      · simp [h1, h2, List.getElem?_eq_getElem hm, modOps, add_assoc]

theorem dot_split (slots : List D) (dest : Nat) (cs : List K) (m : Nat) (x : D) (cd : K)
    (hc : cs[dest - m]? = some cd) (hx : slots[dest]? = some x) (hm : m ≤ dest)
    (hlen : m + cs.length ≤ slots.length) :
    cd • x + dot ((cs.zipIdx m).map fun p => if p.2 = dest then 0 else p.1) (slots.drop m)
      = dot cs (slots.drop m) := by
  induction cs generalizing m with
  | nil => simp at hc
  | cons c cs ih =>
    have hm' : m < slots.length := by simp at hlen; omega
    rw [List.drop_eq_getElem_cons hm']
    simp only [List.zipIdx_cons, List.map_cons, dot_cons]
    by_cases h1 : m = dest
    · subst h1
      simp only [Nat.sub_self, List.getElem?_cons_zero, Option.some.injEq] at hc
      rw [List.getElem?_eq_getElem hm', Option.some.injEq] at hx
      subst hc hx
      simp only [if_true, zero_smul, zero_add]
      congr 1
      have : ∀ (l : List K) (k : Nat), m < k → (l.zipIdx k).map (fun p => if p.2 = m then (0 : K) else p.1) = l := by
        intro l
        induction l with
        | nil => simp
        | cons a as iha =>
          intro k hk
          simp only [List.zipIdx_cons, List.map_cons]
          rw [if_neg (by omega), iha _ (by omega)]
      rw [this _ _ (by omega)]
    · have hlt : m < dest := by omega
      rw [show dest - m = (dest - (m + 1)) + 1 by omega, List.getElem?_cons_succ] at hc
      rw [if_neg h1, ← ih (m + 1) hc (by omega) (by simp at hlen; omega), add_left_comm]

/-- `LinearCombineData` over exact arithmetic. -/
theorem linearCombine_dot [DecidableEq K] (coeffs : List K) (dest : Nat) (slots : List D)
    (h1 : dest < coeffs.length) (h2 : coeffs.length ≤ slots.length) :
    linearCombine (modOps K) coeffs (dest : Int) slots = some (slots.set dest (dot coeffs slots)) := by
  have hd : dest < slots.length := by omega
  unfold linearCombine
  rw [if_neg (by omega)]
  simp only [Int.toNat_natCast, List.getElem?_eq_getElem h1, List.getElem?_eq_getElem hd]
  rw [if_neg (by omega)]
  congr 2
  rw [combineFrom_dot _ _ _ _ _ (by omega)]
  have := dot_split (K := K) slots dest coeffs 0 slots[dest] coeffs[dest] (by simp [List.getElem?_eq_getElem h1])
    (List.getElem?_eq_getElem hd) (by omega) (by omega)
  simp only [List.drop_zero] at this ⊢
  rw [← this]
  by_cases h : coeffs[dest] = 0
  · simp [h, modOps]
  · simp [h, modOps]

end Comb

section Pair
variable {K V W : Type*} [Field K] [DecidableEq K] [AddCommGroup V] [Module K V] [AddCommGroup W] [Module K W]

theorem dot_fst (c : List K) (l : List (V × W)) : dot c (l.map Prod.fst) = (dot c l).1 := by
  induction l generalizing c with
  | nil => simp
  | cons x xs ih => cases c <;> simp [ih]

theorem dot_snd (c : List K) (l : List (V × W)) : dot c (l.map Prod.snd) = (dot c l).2 := by
  induction l generalizing c with
  | nil => simp
  | cons x xs ih => cases c <;> simp [ih]

theorem run_comb2 (D : Dyn K V W) {coeffs : List K} {t : Nat} {l : List (V × W)}
    (h1 : t < coeffs.length) (h2 : coeffs.length ≤ l.length) :
    run (modOps K) (modOps K) D (comb2 coeffs t) (ofPairs l) = some (ofPairs (l.set t (dot coeffs l))) := by
  have e1 := linearCombine_dot coeffs t (l.map Prod.fst) h1 (by simpa using h2)
  have e2 := linearCombine_dot coeffs t (l.map Prod.snd) h1 (by simpa using h2)
  simp [comb2, run, exec, ofPairs, e1, e2, List.map_set, dot_fst, dot_snd]

theorem combineInst_dot (slots : List V) (is : List Nat) (cs : List K) (hne : is ≠ [])
    (hl : is.length = cs.length) (hi : ∀ i ∈ is, i < slots.length) :
    combineInst (modOps K) slots is cs = some (dot cs (is.filterMap fun i => slots[i]?)) := by
  cases is with
  | nil => exact absurd rfl hne
  | cons i is =>
    cases cs with
    | nil => simp at hl
    | cons c cs =>
      have h0 : i < slots.length := hi i (by simp)
      simp only [combineInst, List.getElem?_eq_getElem h0]
      have key : ∀ (is : List Nat) (cs : List K) (acc : V), is.length = cs.length → (∀ i ∈ is, i < slots.length) →
          (is.zip cs).foldl (addInst (modOps K) slots) (some acc) = some (acc + dot cs (is.filterMap fun i => slots[i]?)) := by
        intro is
        induction is with
        | nil => intro cs acc h _; simp
        | cons j js ih =>
          intro cs acc h hj
          cases cs with
          | nil => simp at h
          | cons e es =>
            have hj0 : j < slots.length := hj j (by simp)
            simp only [List.zip_cons_cons, List.foldl_cons, addInst, List.getElem?_eq_getElem hj0, List.filterMap_cons,
              dot_cons]
            rw [ih _ _ (by simpa using h) fun k hk => hj k (by simp [hk])]
            simp [modOps, add_assoc]
      rw [key _ _ _ (by simpa using hl) fun k hk => hi k (by simp [hk])]
      simp [List.getElem?_eq_getElem h0, modOps]

end Pair

end Verif.Steps
