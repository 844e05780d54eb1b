import Verif.Steps.Schemes
import Verif.Steps.Spec
import Verif.Steps.Lemmas

/-!
# What holds at the end of every step because post-processing and diffusion establish it
-/

namespace Verif.Steps

variable {K V W : Type*}

/-- Post-processing makes `P` true of any state and `Q` of any tracers; diffusion and implicit solves keep them; and so do
linear combinations. -/
structure Settles [Semiring K] [AddCommMonoid V] [Module K V] [AddCommMonoid W] [Module K W] (D : Dyn K V W)
    (P : V → Prop) (Q : W → Prop) : Prop where
  postS : ∀ x, P (D.postS x)
  postT : ∀ x, Q (D.postT x)
  hyperS : ∀ c x, P x.1 → P (D.hyper c x).1
  hyperT : ∀ c x, Q x.2 → Q (D.hyper c x).2
  vImpS : ∀ c x y, P x.1 → P y.1 → P (D.vImp c x y).1
  vImpT : ∀ c x y, Q x.2 → Q y.2 → Q (D.vImp c x y).2
  hImpS : ∀ c x y, P x.1 → P y.1 → P (D.hImp c x y).1
  hImpT : ∀ c x y, Q x.2 → Q y.2 → Q (D.hImp c x y).2
  zeroS : P 0
  zeroT : Q 0
  addS : ∀ x y, P x → P y → P (x + y)
  addT : ∀ x y, Q x → Q y → Q (x + y)
  smulS : ∀ (c : K) x, P x → P (c • x)
  smulT : ∀ (c : K) x, Q x → Q (c • x)

/-! ### Following the slots -/

/-- For each slot whether the property is known. -/
structure Known where
  st : Nat → Bool
  tr : Nat → Bool

def setAt (f : Nat → Bool) (i : Nat) (b : Bool) : Nat → Bool := fun j => if j = i then b else f j

/-- What is known after a call. -/
def Cmd.learn : Cmd K → Known → Known
  | .copy s t .state, k => ⟨setAt k.st t (k.st s), k.tr⟩
  | .copy s t .tracers, k => ⟨k.st, setAt k.tr t (k.tr s)⟩
  | .combine c t .state, k => ⟨setAt k.st t ((List.range c.length).all k.st), k.tr⟩
  | .combine c t .tracers, k => ⟨k.st, setAt k.tr t ((List.range c.length).all k.tr)⟩
  | .hExp _ u _, k => ⟨setAt k.st u false, setAt k.tr u false⟩
  | .vExp _ u _, k => ⟨setAt k.st u false, setAt k.tr u false⟩
  | .vImp a u _, k => ⟨setAt k.st u (k.st a && k.st u), setAt k.tr u (k.tr a && k.tr u)⟩
  | .hImp a u _, k => ⟨setAt k.st u (k.st a && k.st u), setAt k.tr u (k.tr a && k.tr u)⟩
  | .vImpExp _ u _, k => ⟨setAt k.st u false, setAt k.tr u false⟩
  | .post u .state, k => ⟨setAt k.st u true, k.tr⟩
  | .post u .tracers, k => ⟨k.st, setAt k.tr u true⟩
  | .filter u, k => ⟨k.st, setAt k.tr u false⟩
  | .after a u w _, k => ⟨setAt (setAt k.st u (k.st a)) w false, setAt (setAt k.tr u (k.tr a)) w false⟩
  | .expCombine _ _ _ u _, k => ⟨setAt k.st u false, setAt k.tr u false⟩
  | .impCombine _ _ _ u _, k => ⟨setAt k.st u false, setAt k.tr u false⟩
  | .afterCombine _ w _, k => ⟨setAt k.st w false, setAt k.tr w false⟩

def learnAll (p : List (Cmd K)) (k : Known) : Known := p.foldl (fun k c => c.learn k) k

theorem learnAll_append (p q : List (Cmd K)) (k : Known) : learnAll (p ++ q) k = learnAll q (learnAll p k) :=
  List.foldl_append ..

/-- What is known is true. -/
def TrueOf (P : V → Prop) (f : Nat → Bool) (l : List V) : Prop := ∀ i v, f i = true → l[i]? = some v → P v

theorem trueOf_set {P : V → Prop} {f : Nat → Bool} {l : List V} (h : TrueOf P f l) (t : Nat) (b : Bool) (x : V)
    (hx : b = true → P x) : TrueOf P (setAt f t b) (l.set t x) := by
  intro i v hf hv
  unfold setAt at hf
  rw [List.getElem?_set] at hv
  split at hf
  · rename_i e
    subst e
    split at hv
    · split at hv
      · obtain rfl := Option.some.inj hv; exact hx hf
      · cases hv
    · rename_i h2; exact absurd rfl h2
  · rename_i e
    rw [if_neg (by omega)] at hv
    exact h i v hf hv

section
variable [Field K] [DecidableEq K] [AddCommGroup V] [Module K V] [AddCommGroup W] [Module K W]

theorem trueOf_combineFrom {P : V → Prop} (add : ∀ x y, P x → P y → P (x + y)) (smul : ∀ (c : K) x, P x → P (c • x))
    (dest : Nat) (slots : List V) (cs : List K) (m : Nat) (acc : V) (hacc : P acc)
    (hs : ∀ i v, m ≤ i → i < m + cs.length → slots[i]? = some v → P v) :
    P (combineFrom (modOps K) dest slots m cs acc) := by
  induction cs generalizing m acc with
  | nil => exact hacc
  | cons c cs ih =>
    unfold combineFrom
    refine ih _ _ ?_ (fun i v h1 h2 => hs i v (by omega) (by rw [List.length_cons]; omega))
    split
    · exact hacc
    · split
      · exact hacc
      · split
        · rename_i y hy
          exact add _ _ hacc (smul _ _ (hs m y le_rfl (by rw [List.length_cons]; omega) hy))
        · exact hacc

theorem trueOf_combine {P : V → Prop} (zero : P 0) (add : ∀ x y, P x → P y → P (x + y))
    (smul : ∀ (c : K) x, P x → P (c • x)) {f : Nat → Bool} {l l' : List V} (h : TrueOf P f l) (c : List K) (t : Nat)
    (he : linearCombine (modOps K) c (t : Int) l = some l') :
    TrueOf P (setAt f t ((List.range c.length).all f)) l' := by
  unfold linearCombine at he
  rw [if_neg (by omega), Int.toNat_natCast] at he
  split at he
  · rename_i cd x hc hx
    split at he
    · cases he
    · obtain rfl := Option.some.inj he
      refine trueOf_set h t _ _ fun hall => ?_
      rw [List.all_eq_true] at hall
      have ht : t < c.length := by
        by_contra hn
        rw [List.getElem?_eq_none (by omega)] at hc
        cases hc
      refine trueOf_combineFrom add smul t l c 0 _ ?_
        (fun i v _ hi hv => h i v (hall i (List.mem_range.mpr (by omega))) hv)
      split
      · exact zero
      · exact smul _ _ (h t x (hall t (List.mem_range.mpr ht)) hx)
  · cases he

theorem trueOf_copy {P : V → Prop} {f : Nat → Bool} {l l' : List V} (h : TrueOf P f l) (s t : Nat)
    (he : copyData (s : Int) (t : Int) l = some l') : TrueOf P (setAt f t (f s)) l' := by
  unfold copyData at he
  rw [if_neg (by omega), Int.toNat_natCast, Int.toNat_natCast] at he
  split at he
  · rename_i x _ hx _
    obtain rfl := Option.some.inj he
    exact trueOf_set h t _ _ fun hf => h s x hf hx
  · cases he

theorem get_split {d : Data V W} {i : Nat} {x : V × W} (h : d.get i = some x) :
    d.st[i]? = some x.1 ∧ d.tr[i]? = some x.2 := by
  unfold Data.get at h
  split at h
  · rename_i v w h1 h2
    obtain rfl := Option.some.inj h
    exact ⟨h1, h2⟩
  · cases h

variable {D : Dyn K V W} {P : V → Prop} {Q : W → Prop}

/-- What is known after a call is true. -/
theorem learn_true (hS : Settles D P Q) (c : Cmd K) (k : Known) (d d' : Data V W) (hs : TrueOf P k.st d.st)
    (ht : TrueOf Q k.tr d.tr) (he : exec (modOps K) (modOps K) D c d = some d') :
    TrueOf P (c.learn k).st d'.st ∧ TrueOf Q (c.learn k).tr d'.tr := by
  have forget : ∀ (f : V × W → V × W → V × W) (a u : Nat) (e : Data V W), dynCall f a u d = some e →
      TrueOf P (setAt k.st u false) e.st ∧ TrueOf Q (setAt k.tr u false) e.tr := by
    intro f a u e h
    unfold dynCall at h
    split at h
    · obtain rfl := Option.some.inj h
      exact ⟨trueOf_set hs u _ _ (by simp), trueOf_set ht u _ _ (by simp)⟩
    · cases h
  have keep : ∀ (f : V × W → V × W → V × W) (a u : Nat) (e : Data V W), (∀ x y, P x.1 → P y.1 → P (f x y).1) →
      (∀ x y, Q x.2 → Q y.2 → Q (f x y).2) → dynCall f a u d = some e →
      TrueOf P (setAt k.st u (k.st a && k.st u)) e.st ∧ TrueOf Q (setAt k.tr u (k.tr a && k.tr u)) e.tr := by
    intro f a u e h1 h2 h
    unfold dynCall at h
    split at h
    · rename_i x y hx hy
      obtain rfl := Option.some.inj h
      obtain ⟨x1, x2⟩ := get_split hx
      obtain ⟨y1, y2⟩ := get_split hy
      refine ⟨trueOf_set hs u _ _ fun hf => ?_, trueOf_set ht u _ _ fun hf => ?_⟩
      · rw [Bool.and_eq_true] at hf
        exact h1 x y (hs a _ hf.1 x1) (hs u _ hf.2 y1)
      · rw [Bool.and_eq_true] at hf
        exact h2 x y (ht a _ hf.1 x2) (ht u _ hf.2 y2)
    · cases h
  have lose : ∀ (f : V × W → V × W → V × W) (is : List Nat) (cs : List K) (a u : Nat) (e : Data V W),
      combineCall (modOps K) (modOps K) f is cs a u d = some e →
      TrueOf P (setAt k.st u false) e.st ∧ TrueOf Q (setAt k.tr u false) e.tr := by
    intro f is cs a u e h
    unfold combineCall at h
    split at h
    · cases h
    · split at h
      · split at h
        · obtain rfl := Option.some.inj h
          exact ⟨trueOf_set hs u _ _ (by simp), trueOf_set ht u _ _ (by simp)⟩
        · cases h
      · cases h
  cases c with
  | copy s t f =>
    cases f <;> simp only [exec, Option.map_eq_some_iff] at he <;> obtain ⟨x, hx, rfl⟩ := he
    · exact ⟨trueOf_copy hs s t hx, ht⟩
    · exact ⟨hs, trueOf_copy ht s t hx⟩
  | combine c t f =>
    cases f <;> simp only [exec, Option.map_eq_some_iff] at he <;> obtain ⟨x, hx, rfl⟩ := he
    · exact ⟨trueOf_combine hS.zeroS hS.addS hS.smulS hs c t hx, ht⟩
    · exact ⟨hs, trueOf_combine hS.zeroT hS.addT hS.smulT ht c t hx⟩
  | hExp a u dt =>
    simp only [exec] at he
    split at he
    · cases he
    · exact forget _ a u _ he
  | vExp a u dt => exact forget _ a u _ he
  | vImp a u dt => exact keep _ a u _ (hS.vImpS dt) (hS.vImpT dt) he
  | hImp a u dt => exact keep _ a u _ (hS.hImpS dt) (hS.hImpT dt) he
  | vImpExp a u dt => exact forget _ a u _ he
  | post u f =>
    cases f <;> simp only [exec, Option.map_eq_some_iff] at he <;> obtain ⟨x, hx, rfl⟩ := he
    · exact ⟨trueOf_set hs u _ _ fun _ => hS.postS x, ht⟩
    · exact ⟨hs, trueOf_set ht u _ _ fun _ => hS.postT x⟩
  | filter u =>
    simp only [exec, Option.map_eq_some_iff] at he
    obtain ⟨x, hx, rfl⟩ := he
    exact ⟨hs, trueOf_set ht u _ _ (by simp)⟩
  | after a u w dt =>
    simp only [exec] at he
    split at he
    · cases he
    · split at he
      · rename_i x y z hx hy hz
        obtain rfl := Option.some.inj he
        obtain ⟨x1, x2⟩ := get_split hx
        exact ⟨trueOf_set (trueOf_set hs u _ _ fun hf => hS.hyperS dt x (hs a _ hf x1)) w _ _ (by simp),
          trueOf_set (trueOf_set ht u _ _ fun hf => hS.hyperT dt x (ht a _ hf x2)) w _ _ (by simp)⟩
      · cases he
  | expCombine is cs a u dt => exact lose _ is cs a u _ he
  | impCombine is cs a u dt => exact lose _ is cs a u _ he
  | afterCombine u w dt =>
    simp only [exec] at he
    split at he
    · cases he
    · split at he
      · rename_i x z hx hz
        obtain rfl := Option.some.inj he
        obtain ⟨x1, x2⟩ := get_split hx
        have e1 : setAt k.st u (k.st u) = k.st := by funext j; unfold setAt; split <;> simp_all
        have e2 : setAt k.tr u (k.tr u) = k.tr := by funext j; unfold setAt; split <;> simp_all
        have s1 := trueOf_set hs u (k.st u) (D.hyper dt x).1 fun hf => hS.hyperS dt x (hs u _ hf x1)
        have s2 := trueOf_set ht u (k.tr u) (D.hyper dt x).2 fun hf => hS.hyperT dt x (ht u _ hf x2)
        rw [e1] at s1
        rw [e2] at s2
        exact ⟨trueOf_set s1 w _ _ (by simp), trueOf_set s2 w _ _ (by simp)⟩
      · cases he

theorem learnAll_true (hS : Settles D P Q) (p : List (Cmd K)) (k : Known) (d d' : Data V W) (hs : TrueOf P k.st d.st)
    (ht : TrueOf Q k.tr d.tr) (he : run (modOps K) (modOps K) D p d = some d') :
    TrueOf P (learnAll p k).st d'.st ∧ TrueOf Q (learnAll p k).tr d'.tr := by
  induction p generalizing k d with
  | nil =>
    obtain rfl := Option.some.inj he
    exact ⟨hs, ht⟩
  | cons c p ih =>
    rw [run, Option.bind_eq_some_iff] at he
    obtain ⟨e, h1, h2⟩ := he
    obtain ⟨a, b⟩ := learn_true hS c k d e hs ht h1
    exact ih (c.learn k) e a b h2

end

/-! ### The schemes -/

/-- Tracers are stepped: all schemes but ARK4. -/
def Scheme.StepsTracers : Scheme K → Prop
  | .ark4 => False
  | _ => True

theorem stepsTracers (S : Scheme K) (h : S ≠ .ark4) : S.StepsTracers := by
  cases S <;> first | exact trivial | exact absurd rfl h

section
variable [Field K]

theorem learn_block (m : Erk) (dt : K) (k : Known) : (learnAll (m.block expH dt) k).st 4 = true ∧
    (learnAll (m.block expH dt) k).tr 4 = true ∧ (learnAll (m.block expHV dt) k).st 4 = true ∧
    (learnAll (m.block expHV dt) k).tr 4 = true := by
  cases m <;> exact ⟨rfl, rfl, rfl, rfl⟩

theorem learn_strang (oc : K) (m : Erk) (first last : Bool) (dt : K) (k : Known) :
    (learnAll (strangStep oc m.block first last dt) k).st 0 = true ∧
      (learnAll (strangStep oc m.block first last dt) k).tr 0 = true := by
  unfold strangStep
  simp only [List.append_assoc]
  rw [learnAll_append, learnAll_append]
  obtain ⟨-, -, h1, h2⟩ := learn_block m dt (learnAll (strangStart first dt) k)
  generalize learnAll (m.block expHV dt) (learnAll (strangStart first dt) k) = k' at h1 h2
  cases last <;> simp [learnAll, copy2, comb2, Cmd.learn, setAt, h1, h2, List.range_succ]

theorem learn_small (n dt : K) (last : Bool) (k : Known) : (learnAll (splitSmall last n dt) k).st 0 = true ∧
    (learnAll (splitSmall last n dt) k).tr 0 = true := by
  cases last <;> exact ⟨rfl, rfl⟩

theorem learn_split (ns : Nat) (dt : K) (k : Known) : (learnAll (splitExp ns dt) k).st 0 = true ∧
    (learnAll (splitExp ns dt) k).tr 0 = true := by
  unfold splitExp
  cases ns with
  | zero => exact ⟨rfl, rfl⟩
  | succ n =>
    rw [List.range_succ, List.flatMap_append, ← List.append_assoc, learnAll_append]
    simp only [List.flatMap_cons, List.flatMap_nil, List.append_nil]
    exact learn_small _ _ _ _

theorem learn_ars443 (dt : K) (k : Known) : (learnAll (ars443 dt) k).st 0 = true ∧
    (learnAll (ars443 dt) k).tr 0 = true := by
  unfold ars443
  rw [learnAll_append, learnAll_append, learnAll_append, learnAll_append]
  generalize learnAll (_ ++ expHV 6 9 (-7 / 4 * dt)) k = k'
  exact ⟨rfl, rfl⟩

theorem learn_ssp3332 (γ dt : K) (k : Known) : (learnAll (ssp3332 γ dt) k).st 0 = true ∧
    (learnAll (ssp3332 γ dt) k).tr 0 = true := by
  unfold ssp3332
  rw [learnAll_append, learnAll_append, learnAll_append, learnAll_append]
  generalize learnAll (_ ++ comb2 _ 1) k = k'
  exact ⟨rfl, rfl⟩

theorem learn_gark2 (γ α dt : K) (k : Known) : (learnAll (gark2 γ α dt) k).st 0 = true ∧
    (learnAll (gark2 γ α dt) k).tr 0 = true := by
  unfold gark2
  rw [learnAll_append, learnAll_append, learnAll_append, learnAll_append]
  generalize learnAll (_ ++ expHV 3 4 ((1 - α) * dt)) k = k'
  exact ⟨rfl, rfl⟩

theorem learn_ark232 (γ δ α dt : K) (k : Known) : (learnAll (ark232 γ δ α dt) k).st 0 = true ∧
    (learnAll (ark232 γ δ α dt) k).tr 0 = true := by
  unfold ark232
  rw [learnAll_append, learnAll_append, learnAll_append, learnAll_append]
  generalize learnAll (_ ++ comb2 _ 7) k = k'
  exact ⟨rfl, rfl⟩

theorem learn_ark4_state (dt : K) (k : Known) : (learnAll (ark4 dt) k).st 0 = true := by
  unfold ark4
  rw [learnAll_append, learnAll_append]
  generalize learnAll (_ ++ [.copy 1 2 .state, .vImp 1 2 (ent ark4E 6 5 * dt)]) k = k'
  rfl

/-- Whatever was known before, after a step the state in slot 0 is settled, and so are the tracers unless the scheme does
not step them. -/
theorem learn_scheme (S : Scheme K) (dt : K) (k : Known) : (learnAll (S.prog dt) k).st 0 = true ∧
    (S.StepsTracers → (learnAll (S.prog dt) k).tr 0 = true) := by
  cases S with
  | erk m =>
    simp only [Scheme.prog, erkStep]
    rw [learnAll_append, learnAll_append]
    obtain ⟨h1, h2, -⟩ := learn_block m dt k
    generalize learnAll (m.block expH dt) k = k' at h1 h2
    simp [learnAll, copy2, Cmd.learn, setAt, h1, h2]
  | strang m oc first last => exact ⟨(learn_strang oc m first last dt k).1, fun _ => (learn_strang oc m first last dt k).2⟩
  | ars222 γ δ =>
    simp only [Scheme.prog, ars222]
    rw [learnAll_append, learnAll_append, learnAll_append, learnAll_append]
    exact ⟨rfl, fun _ => rfl⟩
  | ars232 γ δ =>
    simp only [Scheme.prog, ars232]
    rw [learnAll_append, learnAll_append, learnAll_append, learnAll_append]
    exact ⟨rfl, fun _ => rfl⟩
  | ars343 T =>
    simp only [Scheme.prog, ars343]
    rw [learnAll_append, learnAll_append, learnAll_append]
    exact ⟨rfl, fun _ => rfl⟩
  | ars343b T =>
    simp only [Scheme.prog, ars343b]
    rw [learnAll_append, learnAll_append, learnAll_append]
    exact ⟨rfl, fun _ => rfl⟩
  | ars443 =>
    simp only [Scheme.prog]
    exact ⟨(learn_ars443 dt k).1, fun _ => (learn_ars443 dt k).2⟩
  | ssp3332 γ =>
    simp only [Scheme.prog]
    exact ⟨(learn_ssp3332 γ dt k).1, fun _ => (learn_ssp3332 γ dt k).2⟩
  | gark2 γ α =>
    simp only [Scheme.prog]
    exact ⟨(learn_gark2 γ α dt k).1, fun _ => (learn_gark2 γ α dt k).2⟩
  | ark232 γ δ α =>
    simp only [Scheme.prog]
    exact ⟨(learn_ark232 γ δ α dt k).1, fun _ => (learn_ark232 γ δ α dt k).2⟩
  | ark4 =>
    simp only [Scheme.prog]
    exact ⟨learn_ark4_state dt k, fun h => absurd h id⟩
  | splitExp ns => exact ⟨(learn_split ns dt k).1, fun _ => (learn_split ns dt k).2⟩

/-- The slots of tracers a call writes. -/
def Cmd.tracersWritten : Cmd K → List Nat
  | .copy _ _ .state => []
  | .copy _ t .tracers => [t]
  | .combine _ _ .state => []
  | .combine _ t .tracers => [t]
  | .hExp _ u _ => [u]
  | .vExp _ u _ => [u]
  | .vImp _ u _ => [u]
  | .hImp _ u _ => [u]
  | .vImpExp _ u _ => [u]
  | .post _ .state => []
  | .post u .tracers => [u]
  | .filter u => [u]
  | .after _ u w _ => [u, w]
  | .expCombine _ _ _ u _ => [u]
  | .impCombine _ _ _ u _ => [u]
  | .afterCombine u w _ => [u, w]

omit [Field K] in
theorem learn_unwritten (p : List (Cmd K)) (k : Known) (h : (p.all fun c => c.tracersWritten.all (· != 0)) = true) :
    (learnAll p k).tr 0 = k.tr 0 := by
  induction p generalizing k with
  | nil => rfl
  | cons c p ih =>
    rw [List.all_cons, Bool.and_eq_true] at h
    have : learnAll (c :: p) k = learnAll p (c.learn k) := rfl
    rw [this, ih _ h.2]
    have h1 := h.1
    have z : ∀ (f : Nat → Bool) (i : Nat) (b : Bool), (i != 0) = true → setAt f i b 0 = f 0 := by
      intro f i b hi
      unfold setAt
      rw [if_neg (by simpa using fun e : 0 = i => by simp [← e] at hi)]
    cases c with
    | copy s t f =>
      cases f
      · rfl
      · simp only [Cmd.tracersWritten, List.all_cons, List.all_nil, Bool.and_true] at h1
        exact z _ _ _ h1
    | combine s t f =>
      cases f
      · rfl
      · simp only [Cmd.tracersWritten, List.all_cons, List.all_nil, Bool.and_true] at h1
        exact z _ _ _ h1
    | post t f =>
      cases f
      · rfl
      · simp only [Cmd.tracersWritten, List.all_cons, List.all_nil, Bool.and_true] at h1
        exact z _ _ _ h1
    | after a u w dt =>
      simp only [Cmd.tracersWritten, List.all_cons, List.all_nil, Bool.and_true, Bool.and_eq_true] at h1
      simp only [Cmd.learn]
      rw [z _ _ _ h1.2, z _ _ _ h1.1]
    | afterCombine u w dt =>
      simp only [Cmd.tracersWritten, List.all_cons, List.all_nil, Bool.and_true, Bool.and_eq_true] at h1
      exact z _ _ _ h1.2
    | _ =>
      simp only [Cmd.tracersWritten, List.all_cons, List.all_nil, Bool.and_true] at h1
      exact z _ _ _ h1

theorem learn_ark4 (dt : K) (k : Known) : (learnAll ((Scheme.ark4).prog dt) k).tr 0 = k.tr 0 :=
  learn_unwritten _ k (by
    unfold Scheme.prog ark4
    simp only [List.all_append, List.all_cons, List.all_nil, Cmd.tracersWritten, post2, expHV]
    rfl)

end

end Verif.Steps
