/-
Two models side by side: if every call of one does what the same call of the other does, seen through a relation between
their states and one between their tracers, then so do whole programs.  The models may differ in the type of their data
(another division into patches, other tracers); a slot that a program may not have filled yet need not be related.
-/
import Verif.Steps.PropsFlow

namespace Verif.Steps

variable {K V W V' W' : Type*}

/-- State and tracers are related. -/
def Pairs (RS : V → V' → Prop) (RT : W → W' → Prop) (x : V × W) (y : V' × W') : Prop := RS x.1 y.1 ∧ RT x.2 y.2

/-- Array operations and dynamics of two models preserve the relations. -/
structure Mirrors (oV : Ops K V) (oW : Ops K W) (D : Dyn K V W) (oV' : Ops K V') (oW' : Ops K W') (D' : Dyn K V' W')
    (RS : V → V' → Prop) (RT : W → W' → Prop) : Prop where
  zeroS : RS oV.zero oV'.zero
  zeroT : RT oW.zero oW'.zero
  scaleS : ∀ x y c, RS x y → RS (oV.scale x c) (oV'.scale y c)
  scaleT : ∀ x y c, RT x y → RT (oW.scale x c) (oW'.scale y c)
  addS : ∀ a b x y c, RS a b → RS x y → RS (oV.addProduct a x c) (oV'.addProduct b y c)
  addT : ∀ a b x y c, RT a b → RT x y → RT (oW.addProduct a x c) (oW'.addProduct b y c)
  hExp : ∀ c x x' y y', Pairs RS RT x x' → Pairs RS RT y y' → Pairs RS RT (D.hExp c x y) (D'.hExp c x' y')
  vExp : ∀ c x x' y y', Pairs RS RT x x' → Pairs RS RT y y' → Pairs RS RT (D.vExp c x y) (D'.vExp c x' y')
  vImp : ∀ c x x' y y', Pairs RS RT x x' → Pairs RS RT y y' → Pairs RS RT (D.vImp c x y) (D'.vImp c x' y')
  hImp : ∀ c x x' y y', Pairs RS RT x x' → Pairs RS RT y y' → Pairs RS RT (D.hImp c x y) (D'.hImp c x' y')
  vImpExp : ∀ c x x' y y', Pairs RS RT x x' → Pairs RS RT y y' → Pairs RS RT (D.vImpExp c x y) (D'.vImpExp c x' y')
  postS : ∀ x y, RS x y → RS (D.postS x) (D'.postS y)
  postT : ∀ x y, RT x y → RT (D.postT x) (D'.postT y)
  filt : ∀ x y, RT x y → RT (D.filt x) (D'.filt y)
  hyper : ∀ c x x', Pairs RS RT x x' → Pairs RS RT (D.hyper c x) (D'.hyper c x')
  work : ∀ x x' y y', Pairs RS RT x x' → Pairs RS RT y y' → Pairs RS RT (D.work x y) (D'.work x' y')

/-- Two lists of slots of the same length are related where `b` is true. -/
def RelL (R : V → V' → Prop) (b : List Bool) (x : List V) (y : List V') : Prop :=
  x.length = b.length ∧ y.length = b.length ∧
    ∀ (i : Nat) (v : V) (w : V'), b[i]? = some true → x[i]? = some v → y[i]? = some w → R v w

/-- Both fail, or both succeed in relation. -/
def BothRel {α β : Type*} (R : α → β → Prop) : Option α → Option β → Prop
  | none, none => True
  | some a, some b => R a b
  | _, _ => False

section Lists

variable {R : V → V' → Prop} {b : List Bool} {x : List V} {y : List V'}

theorem bothRel_map {α β α' β' : Type*} {R : α → β → Prop} {R' : α' → β' → Prop} {x : Option α} {y : Option β}
    {f : α → α'} {g : β → β'} (h : BothRel R x y) (hf : ∀ a b, R a b → R' (f a) (g b)) :
    BothRel R' (x.map f) (y.map g) := by
  cases x <;> cases y <;> simp_all [BothRel]

theorem relL_set (h : RelL R b x y) (i : Nat) (v : V) (w : V') (k : Bool) (hk : k = true → R v w) :
    RelL R (b.set i k) (x.set i v) (y.set i w) := by
  refine ⟨by simpa using h.1, by simpa using h.2.1, fun j p q hj hp hq => ?_⟩
  by_cases hij : i = j
  · subst hij
    by_cases hl : i < b.length
    · rw [List.getElem?_set_self hl, Option.some.injEq] at hj
      rw [List.getElem?_set_self (by rw [h.1]; exact hl), Option.some.injEq] at hp
      rw [List.getElem?_set_self (by rw [h.2.1]; exact hl), Option.some.injEq] at hq
      rw [← hp, ← hq]
      exact hk hj
    · rw [List.getElem?_eq_none (by simp [h.1]; omega)] at hp
      simp at hp
  · rw [List.getElem?_set_ne hij] at hj hp hq
    exact h.2.2 j p q hj hp hq

theorem relL_get (h : RelL R b x y) (i : Nat) :
    (∃ v w, x[i]? = some v ∧ y[i]? = some w ∧ (knows b i = true → R v w)) ∨ (x[i]? = none ∧ y[i]? = none) := by
  by_cases hi : i < b.length
  · left
    refine ⟨_, _, List.getElem?_eq_getElem (by rw [h.1]; exact hi), List.getElem?_eq_getElem (by rw [h.2.1]; exact hi),
      fun hk => ?_⟩
    refine h.2.2 i _ _ ?_ (List.getElem?_eq_getElem (by rw [h.1]; exact hi))
      (List.getElem?_eq_getElem (by rw [h.2.1]; exact hi))
    unfold knows at hk
    cases hb : b[i]? with
    | none => simp [hb] at hk
    | some v => simp only [hb, Option.getD_some] at hk; rw [hk]
  · right
    exact ⟨List.getElem?_eq_none (by rw [h.1]; omega), List.getElem?_eq_none (by rw [h.2.1]; omega)⟩

theorem copyData_rel (h : RelL R b x y) (s t : Nat) :
    BothRel (RelL R (b.set t (knows b s))) (copyData (s : Int) (t : Int) x) (copyData (s : Int) (t : Int) y) := by
  unfold copyData
  rw [if_neg (by omega), if_neg (by omega)]
  simp only [Int.toNat_natCast]
  rcases relL_get h s with ⟨v, w, hv, hw, hR⟩ | ⟨hv, hw⟩
  · rcases relL_get h t with ⟨v', w', hv', hw', -⟩ | ⟨hv', hw'⟩
    · simp only [hv, hw, hv', hw', BothRel]
      exact relL_set h t v w _ hR
    · simp [hv, hw, hv', hw', BothRel]
  · simp [hv, hw, BothRel]

theorem combineFrom_rel [Zero K] [DecidableEq K] {o : Ops K V} {o' : Ops K V'} (h : RelL R b x y)
    (add : ∀ a b x y c, R a b → R x y → R (o.addProduct a x c) (o'.addProduct b y c)) (dest : Nat) (cs : List K) (m : Nat)
    (acc : V) (acc' : V') (ha : R acc acc')
    (hk : (List.zipWith (fun x k => decide (x = 0) || k) cs (b.drop m)).all id = true) (hlen : m + cs.length ≤ b.length) :
    R (combineFrom o dest x m cs acc) (combineFrom o' dest y m cs acc') := by
  induction cs generalizing m acc acc' with
  | nil => exact ha
  | cons c cs ih =>
    have hm : m < b.length := by simp at hlen; omega
    rw [List.drop_eq_getElem_cons hm] at hk
    simp only [List.zipWith_cons_cons, List.all_cons, Bool.and_eq_true, id_eq, Bool.or_eq_true,
      decide_eq_true_eq] at hk
    unfold combineFrom
    refine ih _ _ _ ?_ hk.2 (by simp at hlen; omega)
    split_ifs with h1 h2
    · exact ha
    · exact ha
    · rcases relL_get h m with ⟨v, w, hv, hw, hR⟩ | ⟨hv, hw⟩
      · simp only [hv, hw]
        refine add _ _ _ _ _ ha (hR ?_)
        rcases hk.1 with h3 | h3
        · exact absurd h3 h2
        · unfold knows
          rw [List.getElem?_eq_getElem hm, h3]
          rfl
      · simp only [hv, hw]
        exact ha

theorem linearCombine_rel [Zero K] [DecidableEq K] {o : Ops K V} {o' : Ops K V'} (h : RelL R b x y)
    (zero : R o.zero o'.zero) (scale : ∀ x y c, R x y → R (o.scale x c) (o'.scale y c))
    (add : ∀ a b x y c, R a b → R x y → R (o.addProduct a x c) (o'.addProduct b y c)) (cs : List K) (t : Nat) :
    BothRel (RelL R (b.set t (combKnown cs b))) (linearCombine o cs (t : Int) x) (linearCombine o' cs (t : Int) y) := by
  unfold linearCombine
  rw [if_neg (by omega), if_neg (by omega)]
  simp only [Int.toNat_natCast]
  cases hc : cs[t]? with
  | none => simp [BothRel]
  | some cd =>
    rcases relL_get h t with ⟨v, w, hv, hw, hR⟩ | ⟨hv, hw⟩
    · simp only [hv, hw]
      rw [h.1, h.2.1]
      by_cases hl : b.length < cs.length
      · simp [if_pos hl, BothRel]
      · rw [if_neg hl, if_neg hl]
        simp only [BothRel]
        refine relL_set h t _ _ _ fun hk => ?_
        refine combineFrom_rel h add t cs 0 _ _ ?_ (by simpa [combKnown] using hk) (by omega)
        split_ifs with h0
        · exact zero
        · refine scale _ _ _ (hR ?_)
          unfold combKnown at hk
          rw [List.all_eq_true] at hk
          have htc : t < cs.length := (List.getElem?_eq_some_iff.mp hc).1
          have htb : t < b.length := by omega
          have := hk ((List.zipWith (fun x k => decide (x = 0) || k) cs b)[t]'(by simp; omega)) (List.getElem_mem _)
          simp only [List.getElem_zipWith, id_eq, Bool.or_eq_true, decide_eq_true_eq] at this
          have e : cs[t] = cd := by
            rw [List.getElem?_eq_getElem htc] at hc
            exact Option.some.inj hc
          rw [e] at this
          rcases this with h3 | h3
          · exact absurd h3 h0
          · unfold knows
            rw [List.getElem?_eq_getElem htb, h3]
            rfl
    · simp [hv, hw, BothRel]

theorem combineInst_rel [Zero K] {o : Ops K V} {o' : Ops K V'} (h : RelL R b x y)
    (scale : ∀ x y c, R x y → R (o.scale x c) (o'.scale y c))
    (add : ∀ a b x y c, R a b → R x y → R (o.addProduct a x c) (o'.addProduct b y c)) (is : List Nat) (cs : List K) :
    BothRel (fun v w => is.all (knows b) = true → R v w) (combineInst o x is cs) (combineInst o' y is cs) := by
  cases is with
  | nil => simp [combineInst, BothRel]
  | cons i is =>
    cases cs with
    | nil => simp [combineInst, BothRel]
    | cons c cs =>
      unfold combineInst
      rcases relL_get h i with ⟨v, w, hv, hw, hR⟩ | ⟨hv, hw⟩
      · simp only [hv, hw]
        have key : ∀ (l : List (Nat × K)) (Q : Prop) (acc : Option V) (acc' : Option V'),
            (Q → ∀ p ∈ l, knows b p.1 = true) → BothRel (fun v w => Q → R v w) acc acc' →
            BothRel (fun v w => Q → R v w) (l.foldl (addInst o x) acc) (l.foldl (addInst o' y) acc') := by
          intro l Q
          induction l with
          | nil => intro acc acc' _ hr; exact hr
          | cons p l ih =>
            intro acc acc' hQ hr
            simp only [List.foldl_cons]
            refine ih _ _ (fun q p' hp' => hQ q p' (by simp [hp'])) ?_
            unfold addInst
            cases acc with
            | none => cases acc' with
              | none => simp [BothRel]
              | some w => exact absurd hr (by simp [BothRel])
            | some v => cases acc' with
              | none => exact absurd hr (by simp [BothRel])
              | some w =>
                rcases relL_get h p.1 with ⟨v', w', hv', hw', hR'⟩ | ⟨hv', hw'⟩
                · simp only [hv', hw', BothRel]
                  intro q
                  exact add _ _ _ _ _ (hr q) (hR' (hQ q p (by simp)))
                · simp [hv', hw', BothRel]
        refine key _ _ _ _ ?_ ?_
        · intro q p hp
          simp only [List.all_cons, Bool.and_eq_true, List.all_eq_true] at q
          exact q.2 _ (List.of_mem_zip hp).1
        · simp only [BothRel]
          intro q
          simp only [List.all_cons, Bool.and_eq_true] at q
          exact scale _ _ _ (hR q.1)
      · simp [hv, hw, BothRel]

theorem mapSlot_rel (h : RelL R b x y) (f : V → V) (g : V' → V') (hf : ∀ v w, R v w → R (f v) (g w)) (i : Nat) :
    BothRel (RelL R b) (x[i]?.map fun v => x.set i (f v)) (y[i]?.map fun v => y.set i (g v)) := by
  rcases relL_get h i with ⟨v, w, hv, hw, hR⟩ | ⟨hv, hw⟩
  · simp only [hv, hw, Option.map_some, BothRel]
    have := relL_set h i (f v) (g w) (knows b i) fun hk => hf _ _ (hR hk)
    have e : b.set i (knows b i) = b := by
      apply List.ext_getElem?
      intro j
      by_cases hij : i = j
      · subst hij
        by_cases hl : i < b.length
        · rw [List.getElem?_set_self hl]
          unfold knows
          rw [List.getElem?_eq_getElem hl]
          rfl
        · rw [List.getElem?_eq_none (by simp; omega), List.getElem?_eq_none (by omega)]
      · rw [List.getElem?_set_ne hij]
    rwa [e] at this
  · simp [hv, hw, BothRel]

end Lists

section Programs

variable {oV : Ops K V} {oW : Ops K W} {D : Dyn K V W} {oV' : Ops K V'} {oW' : Ops K W'} {D' : Dyn K V' W'}
  {RS : V → V' → Prop} {RT : W → W' → Prop} {s : Sh} {d : Data V W} {d' : Data V' W'}

/-- The slots are related where `s` says so. -/
def Rel (RS : V → V' → Prop) (RT : W → W' → Prop) (s : Sh) (d : Data V W) (d' : Data V' W') : Prop :=
  RelL RS s.st d.st d'.st ∧ RelL RT s.tr d.tr d'.tr

theorem get_rel (h : Rel RS RT s d d') (i : Nat) :
    (∃ x y, d.get i = some x ∧ d'.get i = some y ∧ (s.knows i = true → Pairs RS RT x y)) ∨
      (d.get i = none ∧ d'.get i = none) := by
  unfold Data.get
  rcases relL_get h.1 i with ⟨v, w, hv, hw, hR⟩ | ⟨hv, hw⟩
  · rcases relL_get h.2 i with ⟨v', w', hv', hw', hR'⟩ | ⟨hv', hw'⟩
    · left
      refine ⟨(v, v'), (w, w'), by simp [hv, hv'], by simp [hw, hw'], fun hk => ?_⟩
      simp only [Sh.knows, Bool.and_eq_true] at hk
      exact ⟨hR hk.1, hR' hk.2⟩
    · right
      simp [hv', hw']
  · right
    simp [hv, hw]

theorem put_rel (h : Rel RS RT s d d') (i : Nat) (x : V × W) (y : V' × W') (k : Bool)
    (hk : k = true → Pairs RS RT x y) : Rel RS RT (s.put i k) (d.put i x) (d'.put i y) :=
  ⟨relL_set h.1 i _ _ k fun e => (hk e).1, relL_set h.2 i _ _ k fun e => (hk e).2⟩

theorem dyn_rel (h : Rel RS RT s d d') (f : V × W → V × W → V × W) (g : V' × W' → V' × W' → V' × W')
    (hf : ∀ x x' y y', Pairs RS RT x x' → Pairs RS RT y y' → Pairs RS RT (f x y) (g x' y')) (a u : Nat) :
    BothRel (Rel RS RT (s.put u (s.knows a && s.knows u))) (dynCall f a u d) (dynCall g a u d') := by
  unfold dynCall
  rcases get_rel h a with ⟨x, y, hx, hy, hxy⟩ | ⟨hx, hy⟩
  · rcases get_rel h u with ⟨x', y', hx', hy', hxy'⟩ | ⟨hx', hy'⟩
    · simp only [hx, hy, hx', hy', BothRel]
      refine put_rel h u _ _ _ fun hk => ?_
      rw [Bool.and_eq_true] at hk
      exact hf _ _ _ _ (hxy hk.1) (hxy' hk.2)
    · simp [hx, hy, hx', hy', BothRel]
  · simp [hx, hy, BothRel]

theorem combineCall_rel [Zero K] (M : Mirrors oV oW D oV' oW' D' RS RT) (h : Rel RS RT s d d')
    (f : V × W → V × W → V × W) (g : V' × W' → V' × W' → V' × W')
    (hf : ∀ x x' y y', Pairs RS RT x x' → Pairs RS RT y y' → Pairs RS RT (f x y) (g x' y')) (is : List Nat)
    (cs : List K) (a u : Nat) :
    BothRel (Rel RS RT (s.put u (s.knows a && is.all s.knows))) (combineCall oV oW f is cs a u d)
      (combineCall oV' oW' g is cs a u d') := by
  unfold combineCall
  by_cases hc : is.length ≠ cs.length ∨ is = [] ∨ u ∈ is.tail
  · simp [if_pos hc, BothRel]
  · rw [if_neg hc, if_neg hc]
    have h1 := combineInst_rel (o := oV) (o' := oV') h.1 M.scaleS M.addS is cs
    have h2 := combineInst_rel (o := oW) (o' := oW') h.2 M.scaleT M.addT is cs
    revert h1 h2
    cases combineInst oV d.st is cs <;> cases combineInst oV' d'.st is cs <;>
      simp only [BothRel, IsEmpty.forall_iff, forall_const, imp_self] <;> try (intros; trivial)
    rename_i v v'
    intro hv
    cases combineInst oW d.tr is cs <;> cases combineInst oW' d'.tr is cs <;>
      simp only [BothRel, IsEmpty.forall_iff, forall_const, imp_self] <;> try (intros; trivial)
    rename_i w w'
    intro hw
    rcases get_rel h a with ⟨x, y, hx, hy, hxy⟩ | ⟨hx, hy⟩
    · simp only [hx, hy]
      by_cases hl : u < s.st.length ∧ u < s.tr.length
      · rw [if_pos (by rw [h.1.1, h.2.1]; exact hl), if_pos (by rw [h.1.2.1, h.2.2.1]; exact hl)]
        simp only
        refine put_rel h u _ _ _ fun hk => ?_
        simp only [Bool.and_eq_true, List.all_eq_true, Sh.knows] at hk
        exact hf _ _ _ _ (hxy (by simp [Sh.knows, hk.1]))
          ⟨hv (by rw [List.all_eq_true]; exact fun i hi => (hk.2 i hi).1),
            hw (by rw [List.all_eq_true]; exact fun i hi => (hk.2 i hi).2)⟩
      · rw [if_neg (by rw [h.1.1, h.2.1]; exact hl), if_neg (by rw [h.1.2.1, h.2.2.1]; exact hl)]; trivial
    · simp only [hx, hy]

theorem exec_rel [Zero K] [DecidableEq K] (M : Mirrors oV oW D oV' oW' D' RS RT) (c : Cmd K) (h : Rel RS RT s d d') :
    BothRel (Rel RS RT (flow c s)) (exec oV oW D c d) (exec oV' oW' D' c d') := by
  cases c with
  | copy a t f =>
    cases f
    · exact bothRel_map (copyData_rel h.1 a t) fun x y hxy => ⟨hxy, h.2⟩
    · exact bothRel_map (copyData_rel h.2 a t) fun x y hxy => ⟨h.1, hxy⟩
  | combine c t f =>
    cases f
    · exact bothRel_map (linearCombine_rel h.1 M.zeroS M.scaleS M.addS c t) fun x y hxy => ⟨hxy, h.2⟩
    · exact bothRel_map (linearCombine_rel h.2 M.zeroT M.scaleT M.addT c t) fun x y hxy => ⟨h.1, hxy⟩
  | hExp a u dt =>
    simp only [exec]
    by_cases ha : a = u
    · simp [ha, BothRel]
    · rw [if_neg ha, if_neg ha]; exact dyn_rel h _ _ (M.hExp dt) a u
  | vExp a u dt => exact dyn_rel h _ _ (M.vExp dt) a u
  | vImp a u dt => exact dyn_rel h _ _ (M.vImp dt) a u
  | hImp a u dt => exact dyn_rel h _ _ (M.hImp dt) a u
  | vImpExp a u dt => exact dyn_rel h _ _ (M.vImpExp dt) a u
  | post u f =>
    cases f
    · have := mapSlot_rel h.1 D.postS D'.postS M.postS u
      have := bothRel_map (R' := Rel RS RT s) (f := fun x => (⟨x, d.tr⟩ : Data V W)) (g := fun x => ⟨x, d'.tr⟩) this
        fun x y hxy => ⟨hxy, h.2⟩
      simpa [exec, Option.map_map, Function.comp_def, flow] using this
    · have := mapSlot_rel h.2 D.postT D'.postT M.postT u
      have := bothRel_map (R' := Rel RS RT s) (f := fun x => (⟨d.st, x⟩ : Data V W)) (g := fun x => ⟨d'.st, x⟩) this
        fun x y hxy => ⟨h.1, hxy⟩
      simpa [exec, Option.map_map, Function.comp_def, flow] using this
  | filter u =>
    have := mapSlot_rel h.2 D.filt D'.filt M.filt u
    have := bothRel_map (R' := Rel RS RT s) (f := fun x => (⟨d.st, x⟩ : Data V W)) (g := fun x => ⟨d'.st, x⟩) this
      fun x y hxy => ⟨h.1, hxy⟩
    simpa [exec, Option.map_map, Function.comp_def, flow] using this
  | after a u w dt =>
    simp only [exec, flow]
    by_cases hc : a = w ∨ u = w
    · simp [if_pos hc, BothRel]
    · rw [if_neg hc, if_neg hc]
      rcases get_rel h a with ⟨x, y, hx, hy, hxy⟩ | ⟨hx, hy⟩
      · rcases get_rel h u with ⟨x', y', hx', hy', -⟩ | ⟨hx', hy'⟩
        · rcases get_rel h w with ⟨z, z', hz, hz', hzz⟩ | ⟨hz, hz'⟩
          · simp only [hx, hy, hx', hy', hz, hz', BothRel]
            refine put_rel (put_rel h u _ _ _ fun hk => M.hyper _ _ _ (hxy hk)) w _ _ _ fun hk => ?_
            rw [Bool.and_eq_true] at hk
            exact M.work _ _ _ _ (hxy hk.1) (hzz hk.2)
          · simp [hx, hy, hx', hy', hz, hz', BothRel]
        · simp [hx, hy, hx', hy', BothRel]
      · simp [hx, hy, BothRel]
  | expCombine is cs a u dt => exact combineCall_rel M h _ _ (M.hExp dt) is cs a u
  | impCombine is cs a u dt => exact combineCall_rel M h _ _ (M.vImp dt) is cs a u
  | afterCombine u w dt =>
    simp only [exec, flow]
    by_cases hc : u = w
    · simp [if_pos hc, BothRel]
    · rw [if_neg hc, if_neg hc]
      rcases get_rel h u with ⟨x, y, hx, hy, hxy⟩ | ⟨hx, hy⟩
      · rcases get_rel h w with ⟨z, z', hz, hz', hzz⟩ | ⟨hz, hz'⟩
        · simp only [hx, hy, hz, hz', BothRel]
          refine put_rel (put_rel h u _ _ _ fun hk => M.hyper _ _ _ (hxy hk)) w _ _ _ fun hk => ?_
          rw [Bool.and_eq_true] at hk
          exact M.work _ _ _ _ (hxy hk.1) (hzz hk.2)
        · simp [hx, hy, hz, hz', BothRel]
      · simp [hx, hy, BothRel]

theorem run_rel [Zero K] [DecidableEq K] (M : Mirrors oV oW D oV' oW' D' RS RT) (p : List (Cmd K))
    (h : Rel RS RT s d d') : BothRel (Rel RS RT (flowRun p s)) (run oV oW D p d) (run oV' oW' D' p d') := by
  induction p generalizing s d d' with
  | nil => exact h
  | cons c p ih =>
    have := exec_rel M c h
    simp only [run, flowRun]
    revert this
    cases exec oV oW D c d <;> cases exec oV' oW' D' c d' <;> simp only [BothRel, IsEmpty.forall_iff, forall_const,
      Option.bind_none, Option.bind_some]
    exact fun h' => ih h'

end Programs

end Verif.Steps
