/-
Symbolic execution of the drivers: every slot is tracked as a linear combination of the initial state and of the
evaluations of the two tendencies made so far.  `sym_sound` relates it to `run`.
-/
import Verif.Steps.Lemmas

namespace Verif.Steps

/-- Groups of calls the drivers are made of. -/
inductive Mac (K : Type*)
  | copy (s t : Nat)
  | copyS (s t : Nat)
  | comb (c : List K) (t : Nat)
  | exp (a u : Nat) (c : K)
  | imp (u : Nat) (c : K)
  | impN (u : Nat) (c : K)
  | impH (u : Nat) (c : K)
  | expC (is : List Nat) (cs : List K) (a u : Nat) (c : K)
  | impC (a u : Nat) (c : K)

section
variable {K : Type*} [One K]

/-- The calls of a group. -/
def Mac.expand (ex : Nat → Nat → K → List (Cmd K)) : Mac K → List (Cmd K)
  | .copy s t => copy2 s t
  | .copyS s t => copySS s t
  | .comb c t => comb2 c t
  | .exp a u c => ex a u c
  | .imp u c => impV u c
  | .impN u c => [.vImp u u c]
  | .impH u c => [.vImp u u c, .hImp u u c]
  | .expC is cs a u c => .expCombine is cs a u c :: post2 u
  | .impC a u c => [.impCombine [a] [1] a u c]

def expandAll (ex : Nat → Nat → K → List (Cmd K)) (p : List (Mac K)) : List (Cmd K) := p.flatMap (Mac.expand ex)

end

/-- `c0 • u + Σ fs_i • k_i + Σ gs_i • l_i`. -/
@[ext] structure Lin (K : Type*) where
  c0 : K
  fs : List K
  gs : List K

section
variable {K : Type*} [Field K]

/-- Sum of coefficient lists of different lengths. -/
def addL : List K → List K → List K
  | [], b => b
  | a, [] => a
  | x :: xs, y :: ys => (x + y) :: addL xs ys

def unitL (n : Nat) (c : K) : List K := List.replicate n 0 ++ [c]

def Lin.add (a b : Lin K) : Lin K := ⟨a.c0 + b.c0, addL a.fs b.fs, addL a.gs b.gs⟩
def Lin.smul (c : K) (a : Lin K) : Lin K := ⟨c * a.c0, a.fs.map (c * ·), a.gs.map (c * ·)⟩

/-- Symbolic state: a known slot has a linear form; `fa` and `ga` are the points at which the tendencies were
evaluated. -/
structure Sym (K : Type*) where
  slots : List (Option (Lin K))
  fa : List (Lin K)
  ga : List (Lin K)

/-- Symbolic linear combination; an unknown slot may only occur with coefficient zero. -/
def symDot [DecidableEq K] : List K → List (Option (Lin K)) → Option (Lin K)
  | [], _ => some ⟨0, [], []⟩
  | _, [] => some ⟨0, [], []⟩
  | c :: cs, some f :: fs => (symDot cs fs).map (Lin.add (Lin.smul c f))
  | c :: cs, none :: fs => if c = 0 then symDot cs fs else none

/-- The slots named by a list. -/
def pick (slots : List (Option (Lin K))) (is : List Nat) : List (Option (Lin K)) :=
  is.map fun i => match slots[i]? with | some (some f) => some f | _ => none

/-- Explicit sub-step added to the form `y` with argument `x`, written to slot `u`. -/
def Sym.addF (S : Sym K) (x y : Lin K) (u : Nat) (c : K) : Sym K :=
  ⟨S.slots.set u (some (y.add ⟨0, unitL S.fa.length c, []⟩)), S.fa ++ [x], S.ga⟩

/-- Implicit solve from the form `x`, written to slot `u`. -/
def Sym.addG (S : Sym K) (x : Lin K) (u : Nat) (c : K) : Sym K :=
  ⟨S.slots.set u (some (x.add ⟨0, [], unitL S.ga.length c⟩)), S.fa,
    S.ga ++ [x.add ⟨0, [], unitL S.ga.length c⟩]⟩

/-- One group, symbolically. -/
def symStep [DecidableEq K] : Mac K → Sym K → Option (Sym K)
  | .copy s t, S => match S.slots[s]? with
    | some (some f) => if t < S.slots.length then some ⟨S.slots.set t (some f), S.fa, S.ga⟩ else none
    | _ => none
  | .copyS s t, S => match S.slots[s]? with
    | some (some f) => if t < S.slots.length then some ⟨S.slots.set t (some f), S.fa, S.ga⟩ else none
    | _ => none
  | .comb cs t, S => match symDot cs S.slots with
    | some f => if t < cs.length ∧ cs.length ≤ S.slots.length then some ⟨S.slots.set t (some f), S.fa, S.ga⟩ else none
    | none => none
  | .exp a u c, S => match S.slots[a]?, S.slots[u]? with
    | some (some x), some (some y) => if a = u then none else some (S.addF x y u c)
    | _, _ => none
  | .imp u c, S => match S.slots[u]? with
    | some (some x) => some (S.addG x u c)
    | _ => none
  | .impN u c, S => match S.slots[u]? with
    | some (some x) => some (S.addG x u c)
    | _ => none
  | .impH u c, S => match S.slots[u]? with
    | some (some x) => some (S.addG x u c)
    | _ => none
  | .expC is cs a u c, S => match S.slots[a]?, symDot cs (pick S.slots is) with
    | some (some x), some y =>
      if is.length = cs.length ∧ is ≠ [] ∧ u ∉ is.tail ∧ u < S.slots.length ∧ (∀ i ∈ is, i < S.slots.length) then
        some (S.addF x y u c) else none
    | _, _ => none
  | .impC a u c, S => match S.slots[a]? with
    | some (some x) => if u < S.slots.length then some (S.addG x u c) else none
    | _ => none

def symRun [DecidableEq K] : List (Mac K) → Sym K → Option (Sym K)
  | [], S => some S
  | m :: ms, S => (symStep m S).bind (symRun ms)

/-- Slot 0 is the current state, the other `n` slots are unknown. -/
def symInit (n : Nat) : Sym K := ⟨some ⟨1, [], []⟩ :: List.replicate n none, [], []⟩

end

section
variable {K D : Type*} [Field K] [AddCommGroup D] [Module K D]

def Lin.val (a : Lin K) (u : D) (k l : List D) : D := a.c0 • u + (dot a.fs k + dot a.gs l)

def Lin.Fits (a : Lin K) (k l : List D) : Prop := a.fs.length ≤ k.length ∧ a.gs.length ≤ l.length

theorem dot_addL (a b : List K) (x : List D) : dot (addL a b) x = dot a x + dot b x := by
  induction a generalizing b x with
  | nil => simp [addL]
  | cons a as ih =>
    cases b with
    | nil => simp [addL]
    | cons b bs =>
      cases x with
      | nil => simp
      | cons x xs => simp only [addL, dot_cons, ih]; module

theorem dot_map_mul (c : K) (a : List K) (x : List D) : dot (a.map (c * ·)) x = c • dot a x := by
  induction a generalizing x with
  | nil => simp
  | cons a as ih =>
    cases x with
    | nil => simp
    | cons x xs => simp only [List.map_cons, dot_cons, ih]; module

theorem dot_unitL (x : List D) (y : D) (c : K) : dot (unitL x.length c) (x ++ [y]) = c • y := by
  induction x with
  | nil => simp [unitL]
  | cons z zs ih =>
    simp only [unitL, List.length_cons, List.replicate_succ, List.cons_append, dot_cons, zero_smul, zero_add]
    exact ih

theorem length_addL (a b : List K) : (addL a b).length = max a.length b.length := by
  induction a generalizing b with
  | nil => simp [addL]
  | cons a as ih => cases b <;> simp [addL, ih]

theorem val_add (a b : Lin K) (u : D) (k l : List D) : (a.add b).val u k l = a.val u k l + b.val u k l := by
  simp only [Lin.val, Lin.add, dot_addL]; module

theorem val_smul (c : K) (a : Lin K) (u : D) (k l : List D) : (a.smul c).val u k l = c • a.val u k l := by
  simp only [Lin.val, Lin.smul, dot_map_mul]; module

theorem val_mono {a : Lin K} {k l : List D} (h : a.Fits k l) (u : D) (k' l' : List D) :
    a.val u (k ++ k') (l ++ l') = a.val u k l := by
  simp only [Lin.val, dot_append _ _ _ h.1, dot_append _ _ _ h.2]

theorem fits_mono {a : Lin K} {k l : List D} (h : a.Fits k l) (k' l' : List D) : a.Fits (k ++ k') (l ++ l') := by
  obtain ⟨h1, h2⟩ := h
  constructor <;> simp <;> omega

theorem fits_add {a b : Lin K} {k l : List D} (ha : a.Fits k l) (hb : b.Fits k l) : (a.add b).Fits k l := by
  obtain ⟨h1, h2⟩ := ha
  obtain ⟨h3, h4⟩ := hb
  constructor <;> simp only [Lin.add, length_addL] <;> omega

theorem fits_smul {a : Lin K} {k l : List D} (ha : a.Fits k l) (c : K) : (a.smul c).Fits k l := by
  obtain ⟨h1, h2⟩ := ha
  constructor <;> simpa [Lin.smul]

/-- The slots agree with the symbolic ones. -/
def RepSlots (u : D) (k l : List D) (slots : List (Option (Lin K))) (xs : List D) : Prop :=
  xs.length = slots.length ∧ ∀ (i : Nat) (f : Lin K), slots[i]? = some (some f) → f.Fits k l ∧ xs[i]? = some (f.val u k l)

/-- The state agrees with the symbolic one: `k`, `l` are the evaluations made so far. -/
structure Rep (P : D →ₗ[K] D) (F G : D → D) (u : D) (S : Sym K) (k l xs : List D) : Prop where
  slots : RepSlots u k l S.slots xs
  klen : k.length = S.fa.length
  llen : l.length = S.ga.length
  keq : ∀ (i : Nat) (f : Lin K), S.fa[i]? = some f → f.Fits k l ∧ k[i]? = some (F (f.val u k l))
  leq : ∀ (i : Nat) (f : Lin K), S.ga[i]? = some f → f.Fits k l ∧ l[i]? = some (G (f.val u k l))
  kfix : ∀ x ∈ k, P x = x
  lfix : ∀ x ∈ l, P x = x

theorem dot_fix (P : D →ₗ[K] D) (c : List K) (x : List D) (h : ∀ y ∈ x, P y = y) : P (dot c x) = dot c x := by
  induction x generalizing c with
  | nil => simp
  | cons y ys ih =>
    cases c with
    | nil => simp
    | cons a as =>
      simp only [dot_cons, map_add, map_smul, h y (by simp), ih as fun z hz => h z (by simp [hz])]

theorem val_fix (P : D →ₗ[K] D) {u : D} (hu : P u = u) (a : Lin K) {k l : List D} (hk : ∀ x ∈ k, P x = x)
    (hl : ∀ x ∈ l, P x = x) : P (a.val u k l) = a.val u k l := by
  simp only [Lin.val, map_add, map_smul, hu, dot_fix P _ _ hk, dot_fix P _ _ hl]

theorem symDot_sound [DecidableEq K] {u : D} {k l : List D} (cs : List K) (slots : List (Option (Lin K)))
    (xs : List D) (h : RepSlots u k l slots xs) (f : Lin K) (hf : symDot cs slots = some f) :
    f.Fits k l ∧ dot cs xs = f.val u k l := by
  induction slots generalizing cs xs f with
  | nil =>
    have hx : xs = [] := List.length_eq_zero_iff.mp h.1
    subst hx
    cases cs <;> (simp only [symDot, Option.some.injEq] at hf; subst hf; simp [Lin.Fits, Lin.val])
  | cons s slots ih =>
    cases cs with
    | nil =>
      simp only [symDot, Option.some.injEq] at hf
      subst hf; simp [Lin.Fits, Lin.val]
    | cons c cs =>
      cases xs with
      | nil => simp [RepSlots] at h
      | cons x xs =>
        have h' : RepSlots u k l slots xs :=
          ⟨by simpa using h.1, fun i f hi => by
            have := h.2 (i + 1) f (by simpa using hi)
            simpa using this⟩
        cases s with
        | some g =>
          simp only [symDot, Option.map_eq_some_iff] at hf
          obtain ⟨f', hf', rfl⟩ := hf
          obtain ⟨a, b⟩ := ih _ _ h' _ hf'
          obtain ⟨a0, b0⟩ := h.2 0 g (by simp)
          simp only [List.getElem?_cons_zero, Option.some.injEq] at b0
          exact ⟨fits_add (fits_smul a0 c) a, by rw [dot_cons, val_add, val_smul, b, b0]⟩
        | none =>
          simp only [symDot] at hf
          split_ifs at hf with hc
          obtain ⟨a, b⟩ := ih _ _ h' _ hf
          exact ⟨a, by rw [dot_cons, b, hc, zero_smul, zero_add]⟩

theorem repSlots_set {u : D} {k l : List D} {slots : List (Option (Lin K))} {xs : List D}
    (h : RepSlots u k l slots xs) (t : Nat) {f : Lin K} (hf : f.Fits k l) :
    RepSlots u k l (slots.set t (some f)) (xs.set t (f.val u k l)) := by
  refine ⟨by simpa using h.1, fun i g hi => ?_⟩
  rw [List.getElem?_set] at hi ⊢
  by_cases h1 : t = i
  · subst h1
    rw [if_pos rfl] at hi ⊢
    split_ifs at hi with h2
    simp only [Option.some.injEq] at hi
    subst hi
    refine ⟨hf, ?_⟩
    rw [if_pos (by rw [h.1]; exact h2)]
  · rw [if_neg h1] at hi ⊢
    exact h.2 i g hi

theorem repSlots_mono {u : D} {k l : List D} {slots : List (Option (Lin K))} {xs : List D}
    (h : RepSlots u k l slots xs) (k' l' : List D) : RepSlots u (k ++ k') (l ++ l') slots xs := by
  refine ⟨h.1, fun i f hi => ?_⟩
  obtain ⟨a, b⟩ := h.2 i f hi
  exact ⟨fits_mono a _ _, by rw [b, val_mono a]⟩

theorem rep_setSlot {P : D →ₗ[K] D} {F G : D → D} {u : D} {S : Sym K} {k l xs : List D} (h : Rep P F G u S k l xs)
    (t : Nat) {f : Lin K} (hf : f.Fits k l) :
    Rep P F G u ⟨S.slots.set t (some f), S.fa, S.ga⟩ k l (xs.set t (f.val u k l)) :=
  ⟨repSlots_set h.slots t hf, h.klen, h.llen, h.keq, h.leq, h.kfix, h.lfix⟩

/-- Adding an evaluation of `F`. -/
theorem rep_addF {P : D →ₗ[K] D} {F G : D → D} {u : D} {S : Sym K} {k l xs : List D} (h : Rep P F G u S k l xs)
    (hF : ∀ x, P (F x) = F x) {x y : Lin K} (hx : x.Fits k l) (hy : y.Fits k l) (t : Nat) (c : K) :
    Rep P F G u (S.addF x y t c) (k ++ [F (x.val u k l)]) l
      (xs.set t (y.val u k l + c • F (x.val u k l))) := by
  have hx' := val_mono hx u [F (x.val u k l)] []
  have hy' := val_mono hy u [F (x.val u k l)] []
  simp only [List.append_nil] at hx' hy'
  have hfit : (y.add ⟨0, unitL S.fa.length c, []⟩).Fits (k ++ [F (x.val u k l)]) l := by
    apply fits_add
    · have := fits_mono hy [F (x.val u k l)] []; simpa using this
    · constructor <;> simp [unitL, h.klen]
  have hval : (y.add ⟨0, unitL S.fa.length c, []⟩).val u (k ++ [F (x.val u k l)]) l
      = y.val u k l + c • F (x.val u k l) := by
    rw [val_add, hy']
    simp only [Lin.val, ← h.klen, dot_unitL]
    simp
  refine ⟨?_, by simp [Sym.addF, h.klen], h.llen, ?_, ?_, ?_, h.lfix⟩
  · have := repSlots_set (repSlots_mono h.slots [F (x.val u k l)] []) t (f := y.add ⟨0, unitL S.fa.length c, []⟩)
      (by simpa using hfit)
    simp only [List.append_nil] at this
    rw [hval] at this
    exact this
  · intro i f hi
    simp only [Sym.addF] at hi
    by_cases hlt : i < S.fa.length
    · rw [List.getElem?_append_left hlt] at hi
      obtain ⟨a, b⟩ := h.keq i f hi
      have h1 := val_mono a u [F (x.val u k l)] []
      have h2 := fits_mono a [F (x.val u k l)] []
      simp only [List.append_nil] at h1 h2
      exact ⟨h2, by rw [List.getElem?_append_left (by rw [h.klen]; exact hlt), b, h1]⟩
    · rw [List.getElem?_append_right (by omega)] at hi
      have hi0 : i - S.fa.length = 0 := by
        by_contra hne
        rw [List.getElem?_eq_none (by simp; omega)] at hi
        exact absurd hi (by simp)
      rw [hi0] at hi
      simp only [List.getElem?_cons_zero, Option.some.injEq] at hi
      subst hi
      have h2 := fits_mono hx [F (x.val u k l)] []
      simp only [List.append_nil] at h2
      refine ⟨h2, ?_⟩
      rw [List.getElem?_append_right (by rw [h.klen]; omega), h.klen, hi0, hx']
      rfl
  · intro i f hi
    obtain ⟨a, b⟩ := h.leq i f hi
    have h1 := val_mono a u [F (x.val u k l)] []
    have h2 := fits_mono a [F (x.val u k l)] []
    simp only [List.append_nil] at h1 h2
    exact ⟨h2, by rw [b, h1]⟩
  · intro z hz
    rcases List.mem_append.mp hz with hz | hz
    · exact h.kfix z hz
    · simp only [List.mem_singleton] at hz; subst hz; exact hF _

/-- Adding an evaluation of `G` at the solution `y` of `y = x + c G y`. -/
theorem rep_addG {P : D →ₗ[K] D} {F G : D → D} {u : D} {S : Sym K} {k l xs : List D} (h : Rep P F G u S k l xs)
    (hG : ∀ x, P (G x) = G x) {x : Lin K} (hx : x.Fits k l) (t : Nat) (c : K) (y : D)
    (hy : y = x.val u k l + c • G y) :
    Rep P F G u (S.addG x t c) k (l ++ [G y]) (xs.set t y) := by
  have hx' := val_mono hx u [] [G y]
  simp only [List.append_nil] at hx'
  have hfit : (x.add ⟨0, [], unitL S.ga.length c⟩).Fits k (l ++ [G y]) := by
    apply fits_add
    · have := fits_mono hx [] [G y]; simpa using this
    · constructor <;> simp [unitL, h.llen]
  have hval : (x.add ⟨0, [], unitL S.ga.length c⟩).val u k (l ++ [G y]) = y := by
    rw [val_add, hx']
    simp only [Lin.val, ← h.llen, dot_unitL]
    conv_rhs => rw [hy]
    simp [Lin.val]
  refine ⟨?_, h.klen, by simp [Sym.addG, h.llen], ?_, ?_, h.kfix, ?_⟩
  · have := repSlots_set (repSlots_mono h.slots [] [G y]) t (f := x.add ⟨0, [], unitL S.ga.length c⟩)
      (by simpa using hfit)
    simp only [List.append_nil] at this
    rw [hval] at this
    exact this
  · intro i f hi
    obtain ⟨a, b⟩ := h.keq i f hi
    have h1 := val_mono a u [] [G y]
    have h2 := fits_mono a [] [G y]
    simp only [List.append_nil] at h1 h2
    exact ⟨h2, by rw [b, h1]⟩
  · intro i f hi
    simp only [Sym.addG] at hi
    by_cases hlt : i < S.ga.length
    · rw [List.getElem?_append_left hlt] at hi
      obtain ⟨a, b⟩ := h.leq i f hi
      have h1 := val_mono a u [] [G y]
      have h2 := fits_mono a [] [G y]
      simp only [List.append_nil] at h1 h2
      exact ⟨h2, by rw [List.getElem?_append_left (by rw [h.llen]; exact hlt), b, h1]⟩
    · rw [List.getElem?_append_right (by omega)] at hi
      have hi0 : i - S.ga.length = 0 := by
        by_contra hne
        rw [List.getElem?_eq_none (by simp; omega)] at hi
        exact absurd hi (by simp)
      rw [hi0] at hi
      simp only [List.getElem?_cons_zero, Option.some.injEq] at hi
      subst hi
      refine ⟨hfit, ?_⟩
      rw [List.getElem?_append_right (by rw [h.llen]; omega), h.llen, hi0, hval]
      rfl
  · intro z hz
    rcases List.mem_append.mp hz with hz | hz
    · exact h.lfix z hz
    · simp only [List.mem_singleton] at hz; subst hz; exact hG _

end

section Sound
variable {K V W : Type*} [Field K] [DecidableEq K] [AddCommGroup V] [Module K V] [AddCommGroup W] [Module K W]

/-- `ex` is the program of the explicit sub-step `ef` followed by post-processing. -/
def IsEx (Dy : Dyn K V W) (ex : Nat → Nat → K → List (Cmd K)) (ef : K → V × W → V × W → V × W) : Prop :=
  ∀ (a u : Nat) (c : K) (l : List (V × W)) (x y : V × W), a ≠ u → l[a]? = some x → l[u]? = some y →
    run (modOps K) (modOps K) Dy (ex a u c) (ofPairs l)
      = some (ofPairs (l.set u (Dy.postS (ef c x y).1, Dy.postT (ef c x y).2)))

theorem lt_of_get {α : Type*} {l : List α} {i : Nat} {x : α} (h : l[i]? = some x) : i < l.length := by
  by_contra hc
  rw [List.getElem?_eq_none (by omega)] at h
  exact absurd h (by simp)

theorem get_set_self {α : Type*} {l : List α} {i : Nat} {x : α} (h : i < l.length) : (l.set i x)[i]? = some x := by
  simp [h]

theorem isEx_H (Dy : Dyn K V W) : IsEx Dy expH (exH Dy) := by
  intro a u c l x y hne ha hu
  have h1 := run_dyn (Dy.hExp c) ha hu
  have h2 := run_post2 (K := K) (modOps K) (modOps K) Dy (l := l.set u (Dy.hExp c x y)) (u := u)
    (get_set_self (lt_of_get hu))
  simp only [expH, run, exec, if_neg hne, h1, Option.bind_some]
  rw [h2]; simp [exH]

theorem isEx_V (Dy : Dyn K V W) : IsEx Dy expV (exV Dy) := by
  intro a u c l x y hne ha hu
  have h1 := run_dyn (Dy.vExp c) ha hu
  have h2 := run_post2 (K := K) (modOps K) (modOps K) Dy (l := l.set u (Dy.vExp c x y)) (u := u)
    (get_set_self (lt_of_get hu))
  simp only [expV, run, exec, h1, Option.bind_some]
  rw [h2]; simp [exV]

theorem isEx_HV (Dy : Dyn K V W) : IsEx Dy expHV (exHV Dy) := by
  intro a u c l x y hne ha hu
  have h1 := run_dyn (Dy.hExp c) ha hu
  have ha' : (l.set u (Dy.hExp c x y))[a]? = some x := by rw [List.getElem?_set_ne (fun h => hne h.symm), ha]
  have h2 := run_dyn (Dy.vExp c) ha' (get_set_self (x := Dy.hExp c x y) (lt_of_get hu))
  have h3 := run_post2 (K := K) (modOps K) (modOps K) Dy
    (l := (l.set u (Dy.hExp c x y)).set u (Dy.vExp c x (Dy.hExp c x y))) (u := u)
    (get_set_self (by simpa using lt_of_get hu))
  simp only [expHV, run, exec, if_neg hne, h1, h2, Option.bind_some]
  rw [h3]; simp [exHV]

/-- A program uses the double state copy only where there are no tracers, and the combining calls only for
drivers with horizontal explicit sub-steps. -/
def macOk (W : Type*) (isH : Prop) (hasI : K → Prop) : Mac K → Prop
  | .copyS _ _ => Subsingleton W
  | .expC .. => isH
  | .imp _ c => hasI c
  | .impN _ c => hasI c
  | .impH _ c => hasI c
  | .impC _ _ c => hasI c
  | _ => True

theorem pick_rep {u : V × W} {k l : List (V × W)} {slots : List (Option (Lin K))} {xs : List (V × W)}
    (h : RepSlots u k l slots xs) (is : List Nat) (hi : ∀ i ∈ is, i < slots.length) :
    RepSlots u k l (pick slots is) (is.filterMap fun i => xs[i]?) := by
  have e : is.filterMap (fun i => xs[i]?) = is.filterMap fun i => xs[i]? := rfl
  induction is with
  | nil => exact ⟨by simp [pick], by simp [pick]⟩
  | cons i is ih =>
    have h0 : i < xs.length := by rw [h.1]; exact hi i (by simp)
    have ih' := ih (fun j hj => hi j (by simp [hj])) rfl
    simp only [List.filterMap_cons, List.getElem?_eq_getElem h0]
    refine ⟨by simpa [pick] using ih'.1, fun j f hj => ?_⟩
    cases j with
    | succ j =>
      have := ih'.2 j f (by simpa [pick] using hj)
      simpa using this
    | zero =>
      simp only [pick, List.map_cons, List.getElem?_cons_zero, Option.some.injEq] at hj
      split at hj
      · rename_i g hg
        simp only [Option.some.injEq] at hj
        subst hj
        have := h.2 i g hg
        rw [List.getElem?_eq_getElem h0] at this
        simpa using this
      · exact absurd hj (by simp)

theorem filterMap_map {xs : List (V × W)} {β : Type*} (f : V × W → β) (is : List Nat) :
    is.filterMap (fun i => (xs.map f)[i]?) = (is.filterMap fun i => xs[i]?).map f := by
  induction is with
  | nil => rfl
  | cons i is ih =>
    simp only [List.filterMap_cons, List.getElem?_map]
    cases h : xs[i]? with
    | none => simpa using ih
    | some x => simpa using ih

theorem run_combineCall (f : V × W → V × W → V × W) {is : List Nat} {cs : List K} {a t : Nat}
    {xs : List (V × W)} {x : V × W} (h1 : is.length = cs.length) (h2 : is ≠ []) (h3 : t ∉ is.tail)
    (h4 : t < xs.length) (h5 : ∀ i ∈ is, i < xs.length) (ha : xs[a]? = some x) :
    combineCall (modOps K) (modOps K) f is cs a t (ofPairs xs)
      = some (ofPairs (xs.set t (f x (dot cs (is.filterMap fun i => xs[i]?))))) := by
  unfold combineCall
  rw [if_neg (by simp [h1, h2, h3])]
  have e1 : combineInst (modOps K) (ofPairs xs).st is cs = some (dot cs (is.filterMap fun i => xs[i]?)).1 := by
    rw [combineInst_dot _ _ _ h2 h1 (by simpa [ofPairs] using h5)]
    simp only [ofPairs]
    rw [filterMap_map, dot_fst]
  have e2 : combineInst (modOps K) (ofPairs xs).tr is cs = some (dot cs (is.filterMap fun i => xs[i]?)).2 := by
    rw [combineInst_dot _ _ _ h2 h1 (by simpa [ofPairs] using h5)]
    simp only [ofPairs]
    rw [filterMap_map, dot_snd]
  simp only [e1, e2, get_ofPairs, ha]
  rw [if_pos (by simp [ofPairs, h4]), put_ofPairs]

theorem sym_step_sound {Dy : Dyn K V W} {ex : Nat → Nat → K → List (Cmd K)} {ef : K → V × W → V × W → V × W}
    {P : V × W →ₗ[K] V × W} {F G : V × W → V × W} (hs : SolvesE Dy ef P F) (hex : IsEx Dy ex ef)
    {u : V × W} (hu : P u = u) {S S' : Sym K} {k l xs : List (V × W)} (h : Rep P F G u S k l xs) (m : Mac K)
    (hm : macOk W (ef = exH Dy) (SolvesI Dy P G) m) (hS : symStep m S = some S') :
    ∃ k' l' xs', Rep P F G u S' k' l' xs' ∧
      run (modOps K) (modOps K) Dy (m.expand ex) (ofPairs xs) = some (ofPairs xs') := by
  have fixv : ∀ f : Lin K, P (f.val u k l) = f.val u k l := fun f => val_fix P hu f h.kfix h.lfix
  have impl : ∀ {c : K} (hs : SolvesI Dy P G c) {x : Lin K} (hx : x.Fits k l) (t : Nat),
      Rep P F G u (S.addG x t c) k (l ++ [G (Dy.vImp c (x.val u k l) (x.val u k l))])
        (xs.set t (Dy.vImp c (x.val u k l) (x.val u k l))) := by
    intro c hs x hx t
    exact rep_addG h hs.fixG hx t c _ (hs.impl _ (fixv x))
  cases m with
  | copy s t =>
    simp only [symStep] at hS
    split at hS <;> [skip; exact absurd hS (by simp)]
    rename_i f hf
    split_ifs at hS with ht
    simp only [Option.some.injEq] at hS
    subst hS
    obtain ⟨a, b⟩ := h.slots.2 s f hf
    exact ⟨k, l, _, rep_setSlot h t a, run_copy2 _ _ _ b (by rw [h.slots.1]; exact ht)⟩
  | copyS s t =>
    have : Subsingleton W := hm
    simp only [symStep] at hS
    split at hS <;> [skip; exact absurd hS (by simp)]
    rename_i f hf
    split_ifs at hS with ht
    simp only [Option.some.injEq] at hS
    subst hS
    obtain ⟨a, b⟩ := h.slots.2 s f hf
    exact ⟨k, l, _, rep_setSlot h t a, run_copySS _ _ _ b (by rw [h.slots.1]; exact ht)⟩
  | comb cs t =>
    simp only [symStep] at hS
    split at hS <;> [skip; exact absurd hS (by simp)]
    rename_i f hf
    split_ifs at hS with ht
    simp only [Option.some.injEq] at hS
    subst hS
    obtain ⟨a, b⟩ := symDot_sound cs _ _ h.slots f hf
    refine ⟨k, l, _, rep_setSlot h t a, ?_⟩
    rw [← b]
    exact run_comb2 Dy ht.1 (by rw [h.slots.1]; exact ht.2)
  | exp a t c =>
    simp only [symStep] at hS
    split at hS <;> [skip; exact absurd hS (by simp)]
    rename_i x y hx hy
    split_ifs at hS with hne
    simp only [Option.some.injEq] at hS
    subst hS
    obtain ⟨fx, vx⟩ := h.slots.2 _ _ hx
    obtain ⟨fy, vy⟩ := h.slots.2 _ _ hy
    refine ⟨_, _, _, rep_addF h hs.fixF fx fy t c, ?_⟩
    have := hex a t c xs _ _ hne vx vy
    rw [hs.post, hs.expl c _ _ (fixv y)] at this
    exact this
  | imp t c =>
    have hm : SolvesI Dy P G c := hm
    simp only [symStep] at hS
    split at hS <;> [skip; exact absurd hS (by simp)]
    rename_i x hx
    simp only [Option.some.injEq] at hS
    subst hS
    obtain ⟨fx, vx⟩ := h.slots.2 _ _ hx
    refine ⟨_, _, _, impl hm fx t, ?_⟩
    have h1 := run_dyn (Dy.vImp c) vx vx
    have h2 := run_post2 (K := K) (modOps K) (modOps K) Dy
      (l := xs.set t (Dy.vImp c (x.val u k l) (x.val u k l))) (u := t) (get_set_self (lt_of_get vx))
    simp only [Mac.expand, impV, run, exec, h1, Option.bind_some]
    rw [h2, hs.post]
    have : P (Dy.vImp c (x.val u k l) (x.val u k l)) = Dy.vImp c (x.val u k l) (x.val u k l) := by
      conv_lhs => rw [hm.impl _ (fixv x)]
      conv_rhs => rw [hm.impl _ (fixv x)]
      rw [map_add, map_smul, hm.fixG, fixv]
    rw [this]; simp
  | impN t c =>
    have hm : SolvesI Dy P G c := hm
    simp only [symStep] at hS
    split at hS <;> [skip; exact absurd hS (by simp)]
    rename_i x hx
    simp only [Option.some.injEq] at hS
    subst hS
    obtain ⟨fx, vx⟩ := h.slots.2 _ _ hx
    refine ⟨_, _, _, impl hm fx t, ?_⟩
    have h1 := run_dyn (Dy.vImp c) vx vx
    simp only [Mac.expand, run, exec, h1, Option.bind_some]
  | impH t c =>
    have hm : SolvesI Dy P G c := hm
    simp only [symStep] at hS
    split at hS <;> [skip; exact absurd hS (by simp)]
    rename_i x hx
    simp only [Option.some.injEq] at hS
    subst hS
    obtain ⟨fx, vx⟩ := h.slots.2 _ _ hx
    refine ⟨_, _, _, impl hm fx t, ?_⟩
    have h1 := run_dyn (Dy.vImp c) vx vx
    have hg := get_set_self (x := Dy.vImp c (x.val u k l) (x.val u k l)) (lt_of_get vx)
    have h2 := run_dyn (Dy.hImp c) hg hg
    simp only [Mac.expand, run, exec, h1, h2, Option.bind_some, hm.hImp]
    simp
  | expC is cs a t c =>
    have hE : ef = exH Dy := hm
    simp only [symStep] at hS
    split at hS <;> [skip; exact absurd hS (by simp)]
    rename_i x y hx hy
    split_ifs at hS with hc
    simp only [Option.some.injEq] at hS
    subst hS
    obtain ⟨h1, h2, h3, h4, h5⟩ := hc
    obtain ⟨fx, vx⟩ := h.slots.2 _ _ hx
    obtain ⟨fy, vy⟩ := symDot_sound cs _ _ (pick_rep h.slots is h5) y hy
    refine ⟨_, _, _, rep_addF h hs.fixF fx fy t c, ?_⟩
    have h4' : t < xs.length := by rw [h.slots.1]; exact h4
    have e := run_combineCall (Dy.hExp c) h1 h2 h3 h4' (fun i hi => by rw [h.slots.1]; exact h5 i hi) vx
    have e2 := run_post2 (K := K) (modOps K) (modOps K) Dy (u := t)
      (l := xs.set t (Dy.hExp c (x.val u k l) (y.val u k l))) (get_set_self h4')
    rw [vy] at e
    have h6 := hs.expl c (x.val u k l) (y.val u k l) (fixv y)
    rw [hE] at h6
    simp only [Mac.expand, run, exec, e, Option.bind_some]
    rw [e2, hs.post]
    simp only [exH] at h6
    rw [h6]; simp
  | impC a t c =>
    have hm : SolvesI Dy P G c := hm
    simp only [symStep] at hS
    split at hS <;> [skip; exact absurd hS (by simp)]
    rename_i x hx
    split_ifs at hS with ht
    simp only [Option.some.injEq] at hS
    subst hS
    obtain ⟨fx, vx⟩ := h.slots.2 _ _ hx
    refine ⟨_, _, _, impl hm fx t, ?_⟩
    have e := run_combineCall (K := K) (Dy.vImp c) (is := [a]) (cs := [1]) (t := t) rfl (by simp) (by simp)
      (by rw [h.slots.1]; exact ht) (fun i hi => by
        simp only [List.mem_singleton] at hi; subst hi; exact lt_of_get vx) vx
    simp only [Mac.expand, run, exec, e, Option.bind_some]
    simp [vx]

theorem sym_sound {Dy : Dyn K V W} {ex : Nat → Nat → K → List (Cmd K)} {ef : K → V × W → V × W → V × W}
    {P : V × W →ₗ[K] V × W} {F G : V × W → V × W} (hs : SolvesE Dy ef P F) (hex : IsEx Dy ex ef)
    {u : V × W} (hu : P u = u) (ms : List (Mac K)) {S S' : Sym K} {k l xs : List (V × W)}
    (h : Rep P F G u S k l xs) (hm : ∀ m ∈ ms, macOk W (ef = exH Dy) (SolvesI Dy P G) m) (hS : symRun ms S = some S') :
    ∃ k' l' xs', Rep P F G u S' k' l' xs' ∧
      run (modOps K) (modOps K) Dy (expandAll ex ms) (ofPairs xs) = some (ofPairs xs') := by
  induction ms generalizing S k l xs with
  | nil =>
    simp only [symRun, Option.some.injEq] at hS
    subst hS
    exact ⟨k, l, xs, h, rfl⟩
  | cons m ms ih =>
    simp only [symRun, Option.bind_eq_some_iff] at hS
    obtain ⟨S1, h1, h2⟩ := hS
    obtain ⟨k1, l1, xs1, r1, e1⟩ := sym_step_sound hs hex hu h m (hm m (by simp)) h1
    obtain ⟨k2, l2, xs2, r2, e2⟩ := ih r1 (fun m' h' => hm m' (by simp [h'])) h2
    refine ⟨k2, l2, xs2, r2, ?_⟩
    simp only [expandAll, List.flatMap_cons, run_append, e1, Option.bind_some]
    exact e2

theorem rep_init (P : V × W →ₗ[K] V × W) (F G : V × W → V × W) (u : V × W) (n : Nat) (xs : List (V × W))
    (hx : xs.length = n) : Rep P F G u (symInit n : Sym K) [] [] (u :: xs) := by
  refine ⟨⟨by simp [symInit, hx], ?_⟩, rfl, rfl, by simp [symInit], by simp [symInit], by simp, by simp⟩
  intro i f hi
  cases i with
  | zero =>
    simp only [symInit, List.getElem?_cons_zero, Option.some.injEq] at hi
    subst hi
    simp [Lin.Fits, Lin.val]
  | succ i =>
    simp only [symInit, List.getElem?_cons_succ, List.getElem?_replicate] at hi
    split_ifs at hi
    simp at hi

end Sound

/-- The forms prescribed by rows of a tableau. -/
def rowForms {K : Type*} [Field K] (dt : K) (E I : List (List K)) : List (Lin K) :=
  List.zipWith (fun e i => ⟨1, e.map (dt * ·), i.map (dt * ·)⟩) E I

theorem val_row {K D : Type*} [Field K] [AddCommGroup D] [Module K D] (dt : K) (e i : List K) (u : D)
    (k l : List D) :
    (⟨1, e.map (dt * ·), i.map (dt * ·)⟩ : Lin K).val u k l = u + dt • (dot e k + dot i l) := by
  simp only [Lin.val, dot_map_mul, one_smul, smul_add]

/-- If the symbolic run evaluates the tendencies at the points prescribed by the tableau `T` and leaves its
result in slot `r`, the program computes a step of `T`. -/
theorem step_of_sym {K V W : Type*} [Field K] [DecidableEq K] [AddCommGroup V] [Module K V] [AddCommGroup W]
    [Module K W] {Dy : Dyn K V W} {ex : Nat → Nat → K → List (Cmd K)} {ef : K → V × W → V × W → V × W}
    {P : V × W →ₗ[K] V × W} {F G : V × W → V × W} (hs : SolvesE Dy ef P F) (hex : IsEx Dy ex ef)
    {u : V × W} (hu : P u = u) (ms : List (Mac K)) (n : Nat) (S : Sym K) (T : Tableau K) (hT : T.Shape) (dt : K)
    (r : Nat) (hm : ∀ m ∈ ms, macOk W (ef = exH Dy) (SolvesI Dy P G) m)
    (hS : symRun ms (symInit n) = some S) (hf : S.fa = rowForms dt T.EE T.EI) (hg : S.ga = rowForms dt T.IE T.II)
    (hr : S.slots[r]? = some (some ⟨1, T.bE.map (dt * ·), T.bI.map (dt * ·)⟩))
    (xs : List (V × W)) (hx : xs.length = n) :
    ∃ ys v, run (modOps K) (modOps K) Dy (expandAll ex ms) (ofPairs (u :: xs)) = some (ofPairs ys) ∧
      ys.length = n + 1 ∧ ys[r]? = some v ∧ IsStep T F G dt u v ∧ S.slots.length = n + 1 := by
  obtain ⟨k, l, ys, hrep, hrun⟩ := sym_sound hs hex hu ms (rep_init P F G u n xs hx) hm hS
  have hlenS : ys.length = n + 1 := by
    have hset : ∀ (p : List (Mac K)) (S S' : Sym K), symRun p S = some S' → S'.slots.length = S.slots.length := by
      intro p
      induction p with
      | nil => intro S S' h; simp only [symRun, Option.some.injEq] at h; rw [h]
      | cons m p ih =>
        intro S S' h
        simp only [symRun, Option.bind_eq_some_iff] at h
        obtain ⟨S1, h1, h2⟩ := h
        rw [ih _ _ h2]
        cases m <;> simp only [symStep] at h1 <;> split at h1 <;>
          (first
            | (cases h1; done)
            | (split_ifs at h1 <;> simp only [Option.some.injEq] at h1 <;> subst h1 <;>
                simp [Sym.addF, Sym.addG])
            | (simp only [Option.some.injEq] at h1; subst h1; simp [Sym.addF, Sym.addG]))
    rw [hrep.slots.1, hset _ _ _ hS]
    simp [symInit]
  obtain ⟨_, hv⟩ := hrep.slots.2 r _ hr
  rw [val_row] at hv
  refine ⟨ys, _, hrun, hlenS, hv, ⟨k, l, ?_, ?_, ?_, ?_, rfl⟩, by rw [← hrep.slots.1, hlenS]⟩
  · rw [hrep.klen, hf]; simp [rowForms, hT.1]
  · rw [hrep.llen, hg]; simp [rowForms, hT.2.1]
  · intro i re hre ri hri
    rw [Option.mem_def] at hre hri
    have := hrep.keq i ⟨1, re.map (dt * ·), ri.map (dt * ·)⟩ (by
      rw [hf]; simp [rowForms, List.getElem?_zipWith, hre, hri])
    rw [val_row] at this
    exact this.2
  · intro i re hre ri hri
    rw [Option.mem_def] at hre hri
    have := hrep.leq i ⟨1, re.map (dt * ·), ri.map (dt * ·)⟩ (by
      rw [hg]; simp [rowForms, List.getElem?_zipWith, hre, hri])
    rw [val_row] at this
    exact this.2

end Verif.Steps
