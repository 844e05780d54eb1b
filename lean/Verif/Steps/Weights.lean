/-
Weights: if every slot is "the current state times a weight" for some notion of state that sums and multiples
respect and the dynamics keep, then so is the result.
-/
import Verif.Steps.Symbolic

namespace Verif.Steps

/-- The groups of calls of the drivers, including the ones without a symbolic execution. -/
inductive Pc (K : Type*)
  | mac (m : Mac K)
  | impx (a u : Nat) (c : K)
  | copy1 (s t : Nat)
  | comb1 (c : List K) (t : Nat)
  | impA (a u : Nat) (c : K)
  | impHA (a u : Nat) (c : K)
  | filt (u : Nat)
  | after (a u w : Nat) (c : K)
  | afterC (u w : Nat) (c : K)

def Pc.expand {K : Type*} [One K] (ex : Nat → Nat → K → List (Cmd K)) : Pc K → List (Cmd K)
  | .mac m => m.expand ex
  | .impx a u c => .vImpExp a u c :: post2 u
  | .copy1 s t => [.copy s t .state]
  | .comb1 c t => [.combine c t .state]
  | .impA a u c => .vImp a u c :: post2 u
  | .impHA a u c => .hImp a u c :: .vImp a u c :: post2 u
  | .filt u => [.filter u]
  | .after a u w c => [.after a u w c]
  | .afterC u w c => [.afterCombine u w c]

def expandPc {K : Type*} [One K] (ex : Nat → Nat → K → List (Cmd K)) (p : List (Pc K)) : List (Cmd K) :=
  p.flatMap (Pc.expand ex)

section
variable {K V W : Type*} [Field K] [DecidableEq K] [AddCommGroup V] [Module K V] [AddCommGroup W] [Module K W]

/-- The family of sets `Q w` ("states of weight `w`") is respected by sums and multiples and kept by the
dynamics. -/
structure Keeps (Dy : Dyn K V W) (ef : K → V × W → V × W → V × W) (Q : K → V × W → Prop) : Prop where
  zero : Q 0 0
  add : ∀ a b x y, Q a x → Q b y → Q (a + b) (x + y)
  smul : ∀ c a x, Q a x → Q (c * a) (c • x)
  ex : ∀ c x y, Q 1 x → Q 1 y → Q 1 (Dy.postS (ef c x y).1, Dy.postT (ef c x y).2)
  post : ∀ x, Q 1 x → Q 1 (Dy.postS x.1, Dy.postT x.2)
  vImp : ∀ c x y, Q 1 x → Q 1 y → Q 1 (Dy.vImp c x y)
  hImp : ∀ c x y, Q 1 x → Q 1 y → Q 1 (Dy.hImp c x y)
  vImpExp : ∀ c x y, Q 1 x → Q 1 y → Q 1 (Dy.vImpExp c x y)
  filt : ∀ x, Q 1 x → Q 1 (x.1, Dy.filt x.2)
  hyper : ∀ c x, Q 1 x → Q 1 (Dy.hyper c x)

/-- Weights of the slots (unknown or not a weight: `none`) and the equations they must satisfy. -/
structure Wt (K : Type*) where
  slots : List (Option K)
  need : Prop

/-- Weight of a combination. -/
def wDot : List K → List (Option K) → Option K
  | [], _ => some 0
  | _, [] => some 0
  | c :: cs, some w :: ws => (wDot cs ws).map (c * w + ·)
  | c :: cs, none :: ws => if c = 0 then wDot cs ws else none

def wPick (slots : List (Option K)) (is : List Nat) : List (Option K) := is.map fun i => (slots[i]?).getD none

def wAt (slots : List (Option K)) (i : Nat) : Option K := (slots[i]?).getD none

/-- The argument slot `a` and the update slot `u` have weight one; so has the result. -/
def Wt.dyn (S : Wt K) (a u : Nat) : Option (Wt K) :=
  match wAt S.slots a, wAt S.slots u with
  | some x, some y => some ⟨S.slots.set u (some 1), S.need ∧ x = 1 ∧ y = 1⟩
  | _, _ => none

def Wt.copy (S : Wt K) (s t : Nat) : Option (Wt K) :=
  match wAt S.slots s with
  | some w => if t < S.slots.length then some ⟨S.slots.set t (some w), S.need⟩ else none
  | none => none

def Wt.comb (S : Wt K) (c : List K) (t : Nat) : Option (Wt K) :=
  match wDot c S.slots with
  | some w => if t < c.length ∧ c.length ≤ S.slots.length then some ⟨S.slots.set t (some w), S.need⟩ else none
  | none => none

def Wt.diffuse (S : Wt K) (a u w : Nat) : Option (Wt K) :=
  match wAt S.slots a with
  | some x => if a ≠ w ∧ u ≠ w ∧ u < S.slots.length ∧ w < S.slots.length then
      some ⟨(S.slots.set u (some 1)).set w none, S.need ∧ x = 1⟩ else none
  | none => none

def Wt.expC (S : Wt K) (is : List Nat) (cs : List K) (a u : Nat) : Option (Wt K) :=
  match wAt S.slots a, wDot cs (wPick S.slots is) with
  | some x, some y =>
    if is.length = cs.length ∧ is ≠ [] ∧ u ∉ is.tail ∧ u < S.slots.length ∧ (∀ i ∈ is, i < S.slots.length) then
      some ⟨S.slots.set u (some 1), S.need ∧ x = 1 ∧ y = 1⟩ else none
  | _, _ => none

def Wt.impC (S : Wt K) (a u : Nat) : Option (Wt K) :=
  match wAt S.slots a with
  | some x => if u < S.slots.length then some ⟨S.slots.set u (some 1), S.need ∧ x = 1⟩ else none
  | none => none

def wStep : Pc K → Wt K → Option (Wt K)
  | .mac (.copy s t), S => S.copy s t
  | .mac (.copyS s t), S => S.copy s t
  | .mac (.comb c t), S => S.comb c t
  | .mac (.exp a u _), S => if a = u then none else S.dyn a u
  | .mac (.imp u _), S => S.dyn u u
  | .mac (.impN u _), S => S.dyn u u
  | .mac (.impH u _), S => S.dyn u u
  | .mac (.expC is cs a u _), S => S.expC is cs a u
  | .mac (.impC a u _), S => S.impC a u
  | .impx a u _, S => S.dyn a u
  | .copy1 s t, S => S.copy s t
  | .comb1 c t, S => S.comb c t
  | .impA a u _, S => S.dyn a u
  | .impHA a u _, S => if a = u then none else S.dyn a u
  | .filt u, S => S.dyn u u
  | .after a u w _, S => S.diffuse a u w
  | .afterC u w _, S => S.diffuse u u w

def wRun : List (Pc K) → Wt K → Option (Wt K)
  | [], S => some S
  | m :: ms, S => (wStep m S).bind (wRun ms)

def pcOk (W : Type*) (isH : Prop) : Pc K → Prop
  | .mac (.copyS _ _) => Subsingleton W
  | .copy1 _ _ => Subsingleton W
  | .comb1 _ _ => Subsingleton W
  | .mac (.expC ..) => isH
  | _ => True

/-- The slots have the weights. -/
def RepW (Q : K → V × W → Prop) (ws : List (Option K)) (xs : List (V × W)) : Prop :=
  xs.length = ws.length ∧ ∀ i w, wAt ws i = some w → ∃ x, xs[i]? = some x ∧ Q w x

omit [DecidableEq K] in
theorem repW_set {Q : K → V × W → Prop} {ws : List (Option K)} {xs : List (V × W)} (h : RepW Q ws xs) (t : Nat)
    (w : K) (x : V × W) (hx : Q w x) : RepW Q (ws.set t (some w)) (xs.set t x) := by
  refine ⟨by simpa using h.1, fun i w' hi => ?_⟩
  unfold wAt at hi
  by_cases hit : t = i
  · subst hit
    by_cases hl : t < ws.length
    · rw [List.getElem?_set_self hl, Option.getD_some, Option.some.injEq] at hi
      subst hi
      exact ⟨x, List.getElem?_set_self (by rw [h.1]; exact hl), hx⟩
    · rw [List.getElem?_eq_none (by simp; omega)] at hi; simp at hi
  · rw [List.getElem?_set_ne hit] at hi
    rw [List.getElem?_set_ne hit]
    exact h.2 i w' hi

omit [DecidableEq K] in
theorem repW_setNone {Q : K → V × W → Prop} {ws : List (Option K)} {xs : List (V × W)} (h : RepW Q ws xs) (t : Nat)
    (x : V × W) : RepW Q (ws.set t none) (xs.set t x) := by
  refine ⟨by simpa using h.1, fun i w' hi => ?_⟩
  unfold wAt at hi
  by_cases hit : t = i
  · subst hit
    by_cases hl : t < ws.length
    · rw [List.getElem?_set_self hl] at hi; simp at hi
    · rw [List.getElem?_eq_none (by simp; omega)] at hi; simp at hi
  · rw [List.getElem?_set_ne hit] at hi
    rw [List.getElem?_set_ne hit]
    exact h.2 i w' hi

theorem wDot_sound {Dy : Dyn K V W} {ef : K → V × W → V × W → V × W} {Q : K → V × W → Prop} (hQ : Keeps Dy ef Q)
    (cs : List K) (ws : List (Option K)) (xs : List (V × W)) (h : RepW Q ws xs) (w : K) (hw : wDot cs ws = some w) :
    Q w (dot cs xs) := by
  induction cs generalizing ws xs w with
  | nil => simp only [wDot, Option.some.injEq] at hw; subst hw; simpa using hQ.zero
  | cons c cs ih =>
    cases ws with
    | nil =>
      simp only [wDot, Option.some.injEq] at hw
      subst hw
      have : xs = [] := List.length_eq_zero_iff.mp h.1
      subst this
      simpa using hQ.zero
    | cons o ws =>
      cases xs with
      | nil => simpa using h.1
      | cons x xs =>
        have ht : RepW Q ws xs := ⟨by simpa using h.1, fun i w hi => by
          have := h.2 (i + 1) w (by simpa [wAt] using hi)
          simpa using this⟩
        cases o with
        | none =>
          simp only [wDot] at hw
          split_ifs at hw with hc
          rw [dot_cons, hc, zero_smul, zero_add]
          exact ih ws xs ht w hw
        | some v =>
          simp only [wDot, Option.map_eq_some_iff] at hw
          obtain ⟨b, hb, rfl⟩ := hw
          obtain ⟨y, hy, hq⟩ := h.2 0 v (by simp [wAt])
          simp only [List.getElem?_cons_zero, Option.some.injEq] at hy
          subst hy
          rw [dot_cons]
          exact hQ.add _ _ _ _ (hQ.smul _ _ _ hq) (ih ws xs ht b hb)

omit [DecidableEq K] in
theorem wPick_rep {Q : K → V × W → Prop} {ws : List (Option K)} {xs : List (V × W)} (h : RepW Q ws xs) (is : List Nat)
    (hi : ∀ i ∈ is, i < ws.length) : RepW Q (wPick ws is) (is.filterMap fun i => xs[i]?) := by
  induction is with
  | nil => exact ⟨rfl, fun i w hw => by simp [wPick, wAt] at hw⟩
  | cons j js ih =>
    have hj : j < xs.length := by rw [h.1]; exact hi j (by simp)
    have := ih fun i hi' => hi i (by simp [hi'])
    simp only [List.filterMap_cons, List.getElem?_eq_getElem hj]
    refine ⟨by simpa [wPick] using this.1, fun i w hw => ?_⟩
    cases i with
    | zero =>
      obtain ⟨x, hx, hq⟩ := h.2 j w (by simpa [wPick, wAt] using hw)
      rw [List.getElem?_eq_getElem hj, Option.some.injEq] at hx
      exact ⟨x, by simp [hx], hq⟩
    | succ i => simpa using this.2 i w (by simpa [wPick, wAt] using hw)

theorem run_dyn' (f : V × W → V × W → V × W) {a u : Nat} {l : List (V × W)} {x y : V × W} (ha : l[a]? = some x)
    (hu : l[u]? = some y) : dynCall f a u (ofPairs l) = some (ofPairs (l.set u (f x y))) := run_dyn f ha hu

theorem run_copy1 [Subsingleton W] (Dy : Dyn K V W) {s t : Nat} {l : List (V × W)} {x : V × W}
    (hs : l[s]? = some x) (ht : t < l.length) :
    run (modOps K) (modOps K) Dy [.copy s t .state] (ofPairs l) = some (ofPairs (l.set t x)) := by
  have h1 : copyData (s : Int) (t : Int) (l.map Prod.fst) = some ((l.map Prod.fst).set t x.1) :=
    copyData_some (by simp [hs]) (by simpa using ht)
  have h3 : l.map Prod.snd = (l.set t x).map Prod.snd := by
    apply List.ext_getElem
    · simp
    · intro i _ _; exact Subsingleton.elim _ _
  simp only [run, exec, ofPairs, h1, Option.map_some, Option.bind_some]
  rw [h3, List.map_set (f := Prod.fst)]

theorem run_comb1 [Subsingleton W] (Dy : Dyn K V W) {c : List K} {t : Nat} {l : List (V × W)}
    (h1 : t < c.length) (h2 : c.length ≤ l.length) :
    run (modOps K) (modOps K) Dy [.combine c t .state] (ofPairs l) = some (ofPairs (l.set t (dot c l))) := by
  have e1 := linearCombine_dot c t (l.map Prod.fst) h1 (by simpa using h2)
  have h3 : l.map Prod.snd = (l.set t (dot c l)).map Prod.snd := by
    apply List.ext_getElem
    · simp
    · intro i _ _; exact Subsingleton.elim _ _
  simp only [run, exec, ofPairs, e1, Option.map_some, Option.bind_some]
  rw [h3, List.map_set (f := Prod.fst), dot_fst]

theorem run_after (Dy : Dyn K V W) {a u w : Nat} {c : K} {l : List (V × W)} {x : V × W} (ha : l[a]? = some x)
    (h1 : a ≠ w) (h2 : u ≠ w) (hu : u < l.length) (hw : w < l.length) :
    ∃ z, run (modOps K) (modOps K) Dy [.after a u w c] (ofPairs l)
      = some (ofPairs ((l.set u (Dy.hyper c x)).set w z)) := by
  refine ⟨Dy.work x l[w], ?_⟩
  simp only [run, exec]
  rw [if_neg (by simp [h1, h2])]
  simp [get_ofPairs, ha, List.getElem?_eq_getElem hu, List.getElem?_eq_getElem hw, put_ofPairs]

theorem run_afterC (Dy : Dyn K V W) {u w : Nat} {c : K} {l : List (V × W)} {x : V × W} (ha : l[u]? = some x)
    (h2 : u ≠ w) (hw : w < l.length) :
    ∃ z, run (modOps K) (modOps K) Dy [.afterCombine u w c] (ofPairs l)
      = some (ofPairs ((l.set u (Dy.hyper c x)).set w z)) := by
  refine ⟨Dy.work x l[w], ?_⟩
  simp only [run, exec]
  rw [if_neg h2]
  simp [get_ofPairs, ha, List.getElem?_eq_getElem hw, put_ofPairs]

section Sound
variable {Dy : Dyn K V W} {ex : Nat → Nat → K → List (Cmd K)} {ef : K → V × W → V × W → V × W}
  {Q : K → V × W → Prop}

omit [DecidableEq K] in
theorem copy_rep {S S' : Wt K} {xs : List (V × W)} (h : RepW Q S.slots xs) {s t : Nat} (hS : S.copy s t = some S') :
    ∃ x, xs[s]? = some x ∧ t < xs.length ∧ RepW Q S'.slots (xs.set t x) ∧ (S'.need → S.need) := by
  unfold Wt.copy at hS
  split at hS <;> [skip; exact absurd hS (by simp)]
  rename_i w hw
  split_ifs at hS with ht
  simp only [Option.some.injEq] at hS
  subst hS
  obtain ⟨x, hx, hq⟩ := h.2 _ _ hw
  exact ⟨x, hx, by rw [h.1]; exact ht, repW_set h t w x hq, id⟩

theorem comb_rep (hQ : Keeps Dy ef Q) {S S' : Wt K} {xs : List (V × W)} (h : RepW Q S.slots xs) {c : List K} {t : Nat}
    (hS : S.comb c t = some S') :
    t < c.length ∧ c.length ≤ xs.length ∧ RepW Q S'.slots (xs.set t (dot c xs)) ∧ (S'.need → S.need) := by
  unfold Wt.comb at hS
  split at hS <;> [skip; exact absurd hS (by simp)]
  rename_i w hw
  split_ifs at hS with ht
  simp only [Option.some.injEq] at hS
  subst hS
  exact ⟨ht.1, by rw [h.1]; exact ht.2, repW_set h t w _ (wDot_sound hQ _ _ _ h _ hw), id⟩

omit [DecidableEq K] in
theorem dyn_rep {S S' : Wt K} {xs : List (V × W)} (h : RepW Q S.slots xs) {a u : Nat}
    (hS : S.dyn a u = some S') (hn : S'.need) :
    ∃ x y, xs[a]? = some x ∧ xs[u]? = some y ∧ Q 1 x ∧ Q 1 y ∧ S.need ∧
      ∀ z, Q 1 z → RepW Q S'.slots (xs.set u z) := by
  unfold Wt.dyn at hS
  split at hS <;> [skip; exact absurd hS (by simp)]
  rename_i x y hx hy
  simp only [Option.some.injEq] at hS
  subst hS
  obtain ⟨n, rfl, rfl⟩ := hn
  obtain ⟨x, hx, hq⟩ := h.2 _ _ hx
  obtain ⟨y, hy, hq'⟩ := h.2 _ _ hy
  exact ⟨x, y, hx, hy, hq, hq', n, fun z hz => repW_set h u 1 z hz⟩

omit [DecidableEq K] in
theorem diffuse_rep {S S' : Wt K} {xs : List (V × W)} (h : RepW Q S.slots xs) {a u w : Nat}
    (hS : S.diffuse a u w = some S') (hn : S'.need) :
    ∃ x, xs[a]? = some x ∧ a ≠ w ∧ u ≠ w ∧ u < xs.length ∧ w < xs.length ∧ Q 1 x ∧ S.need ∧
      ∀ z z', Q 1 z → RepW Q S'.slots ((xs.set u z).set w z') := by
  unfold Wt.diffuse at hS
  split at hS <;> [skip; exact absurd hS (by simp)]
  rename_i x hx
  split_ifs at hS with hc
  simp only [Option.some.injEq] at hS
  subst hS
  obtain ⟨n, rfl⟩ := hn
  obtain ⟨x, hx, hq⟩ := h.2 _ _ hx
  rw [← h.1] at hc
  exact ⟨x, hx, hc.1, hc.2.1, hc.2.2.1, hc.2.2.2, hq, n, fun z z' hz => repW_setNone (repW_set h u 1 z hz) w z'⟩

theorem wStep_sound (hQ : Keeps Dy ef Q) (hex : IsEx Dy ex ef) {S S' : Wt K} {xs : List (V × W)}
    (h : RepW Q S.slots xs) (m : Pc K) (hm : pcOk W (ef = exH Dy) m) (hS : wStep m S = some S') (hn : S'.need) :
    S.need ∧ ∃ ys, run (modOps K) (modOps K) Dy (m.expand ex) (ofPairs xs) = some (ofPairs ys) ∧
      RepW Q S'.slots ys := by
  have viaDyn : ∀ {a u : Nat} (f : V × W → V × W → V × W) (p : List (Cmd K)),
      S.dyn a u = some S' →
      (∀ x y, Q 1 x → Q 1 y → Q 1 (f x y)) →
      (∀ x y, xs[a]? = some x → xs[u]? = some y →
        run (modOps K) (modOps K) Dy p (ofPairs xs) = some (ofPairs (xs.set u (f x y)))) →
      S.need ∧ ∃ ys, run (modOps K) (modOps K) Dy p (ofPairs xs) = some (ofPairs ys) ∧ RepW Q S'.slots ys := by
    intro a u f p hd hf hr
    obtain ⟨x, y, hx, hy, qx, qy, n, hz⟩ := dyn_rep h hd hn
    exact ⟨n, _, hr x y hx hy, hz _ (hf x y qx qy)⟩
  have postRun : ∀ (u : Nat) (l : List (V × W)) (z : V × W), u < l.length →
      run (modOps K) (modOps K) Dy (post2 u) (ofPairs (l.set u z))
        = some (ofPairs (l.set u (Dy.postS z.1, Dy.postT z.2))) := by
    intro u l z hu
    rw [run_post2 (K := K) (modOps K) (modOps K) Dy (l := l.set u z) (get_set_self hu)]
    simp
  cases m with
  | mac m =>
    cases m with
    | copy s t =>
      obtain ⟨x, hx, ht, hr, hn'⟩ := copy_rep h hS
      exact ⟨hn' hn, _, run_copy2 _ _ _ hx ht, hr⟩
    | copyS s t =>
      have : Subsingleton W := hm
      obtain ⟨x, hx, ht, hr, hn'⟩ := copy_rep h hS
      exact ⟨hn' hn, _, run_copySS _ _ _ hx ht, hr⟩
    | comb c t =>
      obtain ⟨h1, h2, hr, hn'⟩ := comb_rep hQ h hS
      exact ⟨hn' hn, _, run_comb2 Dy h1 h2, hr⟩
    | exp a u c =>
      simp only [wStep] at hS
      split_ifs at hS with hne
      exact viaDyn (fun x y => (Dy.postS (ef c x y).1, Dy.postT (ef c x y).2)) _ hS (hQ.ex c)
        (fun x y hx hy => hex a u c xs x y hne hx hy)
    | imp u c =>
      refine viaDyn (fun x y => (Dy.postS (Dy.vImp c x y).1, Dy.postT (Dy.vImp c x y).2)) _ hS
        (fun x y hx hy => hQ.post _ (hQ.vImp c x y hx hy)) fun x y hx hy => ?_
      simp only [Mac.expand, Pc.expand, impV, run, exec, run_dyn (Dy.vImp c) hx hy, Option.bind_some]
      exact postRun u xs _ (lt_of_get hy)
    | impN u c =>
      refine viaDyn (Dy.vImp c) _ hS (hQ.vImp c) fun x y hx hy => ?_
      simp only [Mac.expand, Pc.expand, run, exec, run_dyn (Dy.vImp c) hx hy, Option.bind_some]
    | impH u c =>
      refine viaDyn (fun x y => Dy.hImp c (Dy.vImp c x y) (Dy.vImp c x y)) _ hS
        (fun x y hx hy => hQ.hImp c _ _ (hQ.vImp c x y hx hy) (hQ.vImp c x y hx hy)) fun x y hx hy => ?_
      have hg := get_set_self (x := Dy.vImp c x y) (lt_of_get hy)
      simp only [Mac.expand, Pc.expand, run, exec, run_dyn (Dy.vImp c) hx hy, run_dyn (Dy.hImp c) hg hg,
        Option.bind_some]
      simp
    | expC is cs a u c =>
      have hE : ef = exH Dy := hm
      simp only [wStep, Wt.expC] at hS
      split at hS <;> [skip; exact absurd hS (by simp)]
      rename_i x y hx hy
      split_ifs at hS with hc
      simp only [Option.some.injEq] at hS
      subst hS
      obtain ⟨n, rfl, rfl⟩ := hn
      obtain ⟨h1, h2, h3, h4, h5⟩ := hc
      obtain ⟨x, hx, hq⟩ := h.2 _ _ hx
      have hq' := wDot_sound hQ _ _ _ (wPick_rep h is h5) _ hy
      have h4' : u < xs.length := by rw [h.1]; exact h4
      have e := run_combineCall (Dy.hExp c) h1 h2 h3 h4' (fun i hi => by rw [h.1]; exact h5 i hi) hx
      refine ⟨n, _, ?_, repW_set h u 1 _ (hQ.ex c _ _ hq hq')⟩
      simp only [Mac.expand, Pc.expand, run, exec, e, Option.bind_some]
      rw [postRun u xs _ h4', hE]; rfl
    | impC a u c =>
      simp only [wStep, Wt.impC] at hS
      split at hS <;> [skip; exact absurd hS (by simp)]
      rename_i x hx
      split_ifs at hS with ht
      simp only [Option.some.injEq] at hS
      subst hS
      obtain ⟨n, rfl⟩ := hn
      obtain ⟨x, hx, hq⟩ := h.2 _ _ hx
      have e := run_combineCall (K := K) (Dy.vImp c) (is := [a]) (cs := [1]) (t := u) rfl (by simp) (by simp)
        (by rw [h.1]; exact ht) (fun i hi => by
          simp only [List.mem_singleton] at hi; subst hi; exact lt_of_get hx) hx
      refine ⟨n, xs.set u (Dy.vImp c x x), ?_, repW_set h u 1 _ (hQ.vImp c _ _ hq hq)⟩
      simp only [Mac.expand, Pc.expand, run, exec, e, Option.bind_some]
      simp [hx]
  | impx a u c =>
    refine viaDyn (fun x y => (Dy.postS (Dy.vImpExp c x y).1, Dy.postT (Dy.vImpExp c x y).2)) _ hS
      (fun x y hx hy => hQ.post _ (hQ.vImpExp c x y hx hy)) fun x y hx hy => ?_
    simp only [Pc.expand, run, exec, run_dyn (Dy.vImpExp c) hx hy, Option.bind_some]
    exact postRun u xs _ (lt_of_get hy)
  | copy1 s t =>
    have : Subsingleton W := hm
    obtain ⟨x, hx, ht, hr, hn'⟩ := copy_rep h hS
    exact ⟨hn' hn, _, run_copy1 Dy hx ht, hr⟩
  | comb1 c t =>
    have : Subsingleton W := hm
    obtain ⟨h1, h2, hr, hn'⟩ := comb_rep hQ h hS
    exact ⟨hn' hn, _, run_comb1 Dy h1 h2, hr⟩
  | impA a u c =>
    refine viaDyn (fun x y => (Dy.postS (Dy.vImp c x y).1, Dy.postT (Dy.vImp c x y).2)) _ hS
      (fun x y hx hy => hQ.post _ (hQ.vImp c x y hx hy)) fun x y hx hy => ?_
    simp only [Pc.expand, run, exec, run_dyn (Dy.vImp c) hx hy, Option.bind_some]
    exact postRun u xs _ (lt_of_get hy)
  | impHA a u c =>
    simp only [wStep] at hS
    split_ifs at hS with hne
    refine viaDyn (fun x y => (Dy.postS (Dy.vImp c x (Dy.hImp c x y)).1, Dy.postT (Dy.vImp c x (Dy.hImp c x y)).2)) _
      hS (fun x y hx hy => hQ.post _ (hQ.vImp c x _ hx (hQ.hImp c x y hx hy))) fun x y hx hy => ?_
    have hg := get_set_self (x := Dy.hImp c x y) (lt_of_get hy)
    have hx' : (xs.set u (Dy.hImp c x y))[a]? = some x := by
      rw [List.getElem?_set_ne (fun e => hne e.symm), hx]
    simp only [Pc.expand, run, exec, run_dyn (Dy.hImp c) hx hy, run_dyn (Dy.vImp c) hx' hg, Option.bind_some,
      List.set_set]
    exact postRun u xs _ (lt_of_get hy)
  | filt u =>
    refine viaDyn (fun x _ => (x.1, Dy.filt x.2)) _ hS (fun x y hx _ => hQ.filt x hx) fun x y hx hy => ?_
    simp [Pc.expand, run, exec, ofPairs, hx, List.map_set]
    apply List.ext_getElem
    · simp
    · intro i h1 h2
      simp only [List.getElem_map, List.getElem_set]
      split_ifs with hi
      · subst hi
        rw [List.getElem?_eq_getElem (by simpa using h1), Option.some.injEq] at hx
        rw [hx]
      · rfl
  | after a u w c =>
    obtain ⟨x, hx, h1, h2, h3, h4, hq, n, hz⟩ := diffuse_rep h hS hn
    obtain ⟨z, hr⟩ := run_after Dy (c := c) hx h1 h2 h3 h4
    exact ⟨n, _, hr, hz _ _ (hQ.hyper c x hq)⟩
  | afterC u w c =>
    obtain ⟨x, hx, h1, h2, h3, h4, hq, n, hz⟩ := diffuse_rep h hS hn
    obtain ⟨z, hr⟩ := run_afterC Dy (c := c) hx h2 h4
    exact ⟨n, _, hr, hz _ _ (hQ.hyper c x hq)⟩

theorem wRun_sound (hQ : Keeps Dy ef Q) (hex : IsEx Dy ex ef) (p : List (Pc K)) {S S' : Wt K} {xs : List (V × W)}
    (h : RepW Q S.slots xs) (hm : ∀ m ∈ p, pcOk W (ef = exH Dy) m) (hS : wRun p S = some S') (hn : S'.need) :
    S.need ∧ ∃ ys, run (modOps K) (modOps K) Dy (expandPc ex p) (ofPairs xs) = some (ofPairs ys) ∧
      RepW Q S'.slots ys := by
  induction p generalizing S xs with
  | nil =>
    simp only [wRun, Option.some.injEq] at hS
    subst hS
    exact ⟨hn, xs, rfl, h⟩
  | cons m p ih =>
    simp only [wRun, Option.bind_eq_some_iff] at hS
    obtain ⟨S1, h1, h2⟩ := hS
    have need1 : S1.need := by
      clear ih h
      have mono : ∀ (p : List (Pc K)) (S S' : Wt K), wRun p S = some S' → S'.need → S.need := by
        have one : ∀ (m : Pc K) (S S' : Wt K), wStep m S = some S' → S'.need → S.need := by
          intro m S S' h hn
          have c1 : ∀ {s t : Nat}, S.copy s t = some S' → S.need := by
            intro s t h
            unfold Wt.copy at h
            split at h <;> [skip; exact absurd h (by simp)]
            split_ifs at h
            simp only [Option.some.injEq] at h; subst h; exact hn
          have c2 : ∀ {c : List K} {t : Nat}, S.comb c t = some S' → S.need := by
            intro s t h
            unfold Wt.comb at h
            split at h <;> [skip; exact absurd h (by simp)]
            split_ifs at h
            simp only [Option.some.injEq] at h; subst h; exact hn
          have c3 : ∀ {a u : Nat}, S.dyn a u = some S' → S.need := by
            intro s t h
            unfold Wt.dyn at h
            split at h <;> [skip; exact absurd h (by simp)]
            simp only [Option.some.injEq] at h; subst h; exact hn.1
          have c4 : ∀ {a u w : Nat}, S.diffuse a u w = some S' → S.need := by
            intro a u w h
            unfold Wt.diffuse at h
            split at h <;> [skip; exact absurd h (by simp)]
            split_ifs at h
            simp only [Option.some.injEq] at h; subst h; exact hn.1
          cases m with
          | mac m =>
            cases m with
            | copy s t => exact c1 h
            | copyS s t => exact c1 h
            | comb c t => exact c2 h
            | exp a u c => simp only [wStep] at h; split_ifs at h; exact c3 h
            | imp u c => exact c3 h
            | impN u c => exact c3 h
            | impH u c => exact c3 h
            | expC is cs a u c =>
              simp only [wStep, Wt.expC] at h
              split at h <;> [skip; exact absurd h (by simp)]
              split_ifs at h
              simp only [Option.some.injEq] at h; subst h; exact hn.1
            | impC a u c =>
              simp only [wStep, Wt.impC] at h
              split at h <;> [skip; exact absurd h (by simp)]
              split_ifs at h
              simp only [Option.some.injEq] at h; subst h; exact hn.1
          | impx a u c => exact c3 h
          | copy1 s t => exact c1 h
          | comb1 c t => exact c2 h
          | impA a u c => exact c3 h
          | impHA a u c => simp only [wStep] at h; split_ifs at h; exact c3 h
          | filt u => exact c3 h
          | after a u w c => exact c4 h
          | afterC u w c => exact c4 h
        intro p
        induction p with
        | nil => intro S S' h hn; simp only [wRun, Option.some.injEq] at h; subst h; exact hn
        | cons m p ih =>
          intro S S' h hn
          simp only [wRun, Option.bind_eq_some_iff] at h
          obtain ⟨S1, h1, h2⟩ := h
          exact one m S S1 h1 (ih S1 S' h2 hn)
      exact mono p S1 S' h2 hn
    obtain ⟨n, ys, hr, hrep⟩ := wStep_sound hQ hex h m (hm m (by simp)) h1 need1
    obtain ⟨_, zs, hr2, hrep2⟩ := ih hrep (fun m' hm' => hm m' (by simp [hm'])) h2
    refine ⟨n, zs, ?_, hrep2⟩
    rw [expandPc, List.flatMap_cons, run_append, hr, Option.bind_some]
    exact hr2

end Sound

/-- Slot 0 has weight one, the other `n` are unknown. -/
def wInit (n : Nat) : Wt K := ⟨some 1 :: List.replicate n none, True⟩

omit [DecidableEq K] in
theorem repW_init {Q : K → V × W → Prop} {u : V × W} (hu : Q 1 u) (n : Nat) (xs : List (V × W)) (hx : xs.length = n) :
    RepW Q (wInit (K := K) n).slots (u :: xs) := by
  refine ⟨by simp [wInit, hx], fun i w hi => ?_⟩
  cases i with
  | zero =>
    simp only [wAt, wInit, List.getElem?_cons_zero, Option.getD_some, Option.some.injEq] at hi
    subst hi
    exact ⟨u, rfl, hu⟩
  | succ i =>
    simp only [wAt, wInit, List.getElem?_cons_succ, List.getElem?_replicate] at hi
    split_ifs at hi <;> simp at hi

end

end Verif.Steps
