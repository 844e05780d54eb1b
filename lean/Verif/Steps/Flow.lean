/-
Which slots are determined by the state at the start of a step (for arbitrary arithmetic), which programs cannot
fail, and which sets of states the programs keep.
-/
import Verif.Steps.Lemmas

namespace Verif.Steps

/-! ### Dependence -/

section Flow
variable {K V W : Type*}

/-- Two lists of slots of the same length agree where `b` is true. -/
def AgreeL (b : List Bool) (x y : List V) : Prop :=
  x.length = b.length ∧ y.length = b.length ∧ ∀ i : Nat, b[i]? = some true → x[i]? = y[i]?

/-- Which state and tracer slots are determined. -/
structure Sh where
  st : List Bool
  tr : List Bool

def Agree (s : Sh) (d d' : Data V W) : Prop := AgreeL s.st d.st d'.st ∧ AgreeL s.tr d.tr d'.tr

def knows (b : List Bool) (i : Nat) : Bool := b[i]?.getD false
def Sh.knows (s : Sh) (i : Nat) : Bool := Steps.knows s.st i && Steps.knows s.tr i
def Sh.put (s : Sh) (i : Nat) (b : Bool) : Sh := ⟨s.st.set i b, s.tr.set i b⟩

def combKnown [Zero K] [DecidableEq K] (c : List K) (b : List Bool) : Bool :=
  (List.zipWith (fun x k => decide (x = 0) || k) c b).all id

/-- Dependence through one call. -/
def flow [Zero K] [DecidableEq K] : Cmd K → Sh → Sh
  | .copy s t .state, h => ⟨h.st.set t (knows h.st s), h.tr⟩
  | .copy s t .tracers, h => ⟨h.st, h.tr.set t (knows h.tr s)⟩
  | .combine c t .state, h => ⟨h.st.set t (combKnown c h.st), h.tr⟩
  | .combine c t .tracers, h => ⟨h.st, h.tr.set t (combKnown c h.tr)⟩
  | .hExp a u _, h => h.put u (h.knows a && h.knows u)
  | .vExp a u _, h => h.put u (h.knows a && h.knows u)
  | .vImp a u _, h => h.put u (h.knows a && h.knows u)
  | .hImp a u _, h => h.put u (h.knows a && h.knows u)
  | .vImpExp a u _, h => h.put u (h.knows a && h.knows u)
  | .post _ _, h => h
  | .filter _, h => h
  | .after a u w _, h => (h.put u (h.knows a)).put w (h.knows a && h.knows w)
  | .expCombine is _ a u _, h => h.put u (h.knows a && is.all h.knows)
  | .impCombine is _ a u _, h => h.put u (h.knows a && is.all h.knows)
  | .afterCombine u w _, h => (h.put u (h.knows u)).put w (h.knows u && h.knows w)

def flowRun [Zero K] [DecidableEq K] : List (Cmd K) → Sh → Sh
  | [], h => h
  | c :: cs, h => flowRun cs (flow c h)

/-- Both calls fail, or both succeed in agreement. -/
def Both {α : Type*} (R : α → α → Prop) : Option α → Option α → Prop
  | none, none => True
  | some a, some b => R a b
  | _, _ => False

theorem both_map {α β : Type*} {R : α → α → Prop} {R' : β → β → Prop} {x y : Option α} {f g : α → β}
    (h : Both R x y) (hf : ∀ a b, R a b → R' (f a) (g b)) : Both R' (x.map f) (y.map g) := by
  cases x <;> cases y <;> simp_all [Both]

theorem knows_eq {b : List Bool} {x y : List V} (h : AgreeL b x y) {i : Nat} (hk : knows b i = true) :
    x[i]? = y[i]? := by
  apply h.2.2
  unfold knows at hk
  cases hb : b[i]? with
  | none => simp [hb] at hk
  | some v => simp only [hb, Option.getD_some] at hk; rw [hk]

theorem agreeL_set {b : List Bool} {x y : List V} (h : AgreeL b x y) (i : Nat) (v w : V) (k : Bool)
    (hk : k = true → v = w) : AgreeL (b.set i k) (x.set i v) (y.set i w) := by
  refine ⟨by simpa using h.1, by simpa using h.2.1, fun j hj => ?_⟩
  by_cases hij : i = j
  · subst hij
    by_cases hl : i < b.length
    · rw [List.getElem?_set_self hl, Option.some.injEq] at hj
      rw [List.getElem?_set_self (by rw [h.1]; exact hl), List.getElem?_set_self (by rw [h.2.1]; exact hl), hk hj]
    · rw [List.getElem?_eq_none (by simp [h.1]; omega), List.getElem?_eq_none (by simp [h.2.1]; omega)]
  · rw [List.getElem?_set_ne hij] at hj ⊢
    rw [List.getElem?_set_ne hij]
    exact h.2.2 j hj

theorem isSome_eq {b : List Bool} {x y : List V} (h : AgreeL b x y) (i : Nat) :
    (∃ v w, x[i]? = some v ∧ y[i]? = some w) ∨ (x[i]? = none ∧ y[i]? = none) := by
  by_cases hi : i < b.length
  · left
    exact ⟨_, _, List.getElem?_eq_getElem (by rw [h.1]; exact hi), List.getElem?_eq_getElem (by rw [h.2.1]; exact hi)⟩
  · right
    exact ⟨List.getElem?_eq_none (by rw [h.1]; omega), List.getElem?_eq_none (by rw [h.2.1]; omega)⟩

theorem copyData_flow {b : List Bool} {x y : List V} (h : AgreeL b x y) (s t : Nat) :
    Both (AgreeL (b.set t (knows b s))) (copyData (s : Int) (t : Int) x) (copyData (s : Int) (t : Int) y) := by
  unfold copyData
  rw [if_neg (by omega), if_neg (by omega)]
  simp only [Int.toNat_natCast]
  rcases isSome_eq h s with ⟨v, w, hv, hw⟩ | ⟨hv, hw⟩
  · rcases isSome_eq h t with ⟨v', w', hv', hw'⟩ | ⟨hv', hw'⟩
    · simp only [hv, hw, hv', hw', Both]
      refine agreeL_set h t v w _ fun hk => ?_
      have := knows_eq h hk
      rw [hv, hw] at this
      exact Option.some.inj this
    · simp [hv, hw, hv', hw', Both]
  · simp [hv, hw, Both]

theorem combineFrom_flow [Zero K] [DecidableEq K] (o : Ops K V) {b : List Bool} {x y : List V} (h : AgreeL b x y)
    (dest : Nat) (cs : List K) (m : Nat) (acc : V)
    (hk : (List.zipWith (fun x k => decide (x = 0) || k) cs (b.drop m)).all id = true)
    (hlen : m + cs.length ≤ b.length) :
    combineFrom o dest x m cs acc = combineFrom o dest y m cs acc := by
  induction cs generalizing m acc with
  | nil => rfl
  | cons c cs ih =>
    have hm : m < b.length := by simp at hlen; omega
    rw [List.drop_eq_getElem_cons hm] at hk
    simp only [List.zipWith_cons_cons, List.all_cons, Bool.and_eq_true, id_eq, Bool.or_eq_true,
      decide_eq_true_eq] at hk
    have hxy : c = 0 ∨ x[m]? = y[m]? := by
      rcases hk.1 with h1 | h1
      · exact Or.inl h1
      · right; apply h.2.2; rw [List.getElem?_eq_getElem hm, h1]
    unfold combineFrom
    rw [ih _ _ hk.2 (by simp at hlen; omega)]
    rcases hxy with h1 | h1
    · simp [h1]
    · rw [h1]

theorem linearCombine_flow [Zero K] [DecidableEq K] (o : Ops K V) {b : List Bool} {x y : List V}
    (h : AgreeL b x y) (cs : List K) (t : Nat) :
    Both (AgreeL (b.set t (combKnown cs b))) (linearCombine o cs (t : Int) x) (linearCombine o cs (t : Int) y) := by
  unfold linearCombine
  rw [if_neg (by omega), if_neg (by omega)]
  simp only [Int.toNat_natCast]
  cases hc : cs[t]? with
  | none => simp [Both]
  | some cd =>
    rcases isSome_eq h t with ⟨v, w, hv, hw⟩ | ⟨hv, hw⟩
    · simp only [hv, hw]
      by_cases hl : b.length < cs.length
      · rw [if_pos (by rw [h.1]; exact hl), if_pos (by rw [h.2.1]; exact hl)]; trivial
      · have hlx : ¬ x.length < cs.length := by rw [h.1]; exact hl
        have hly : ¬ y.length < cs.length := by rw [h.2.1]; exact hl
        rw [if_neg hlx, if_neg hly]
        simp only [Both]
        refine agreeL_set h t _ _ _ fun hk => ?_
        have e : (if cd = 0 then o.zero else o.scale v cd) = (if cd = 0 then o.zero else o.scale w cd) := by
          by_cases h0 : cd = 0
          · simp [h0]
          · have htc : t < cs.length := (List.getElem?_eq_some_iff.mp hc).1
            have htb : t < b.length := by omega
            have hb : b[t]? = some true := by
              unfold combKnown at hk
              rw [List.all_eq_true] at hk
              have := hk (decide (cs[t] = 0) || b[t]) (by
                rw [List.mem_iff_getElem]
                refine ⟨t, by simp; omega, by simp⟩)
              simp only [id_eq, Bool.or_eq_true, decide_eq_true_eq] at this
              rw [List.getElem?_eq_getElem htc, Option.some.injEq] at hc
              rw [hc] at this
              rw [List.getElem?_eq_getElem htb]
              rcases this with h1 | h1
              · exact absurd h1 h0
              · rw [h1]
            have := h.2.2 t hb
            rw [hv, hw] at this
            rw [Option.some.inj this]
        rw [e]
        exact combineFrom_flow o h t cs 0 _ (by simpa [combKnown] using hk) (by omega)
    · simp [hv, hw, Both]

theorem get_flow {s : Sh} {d d' : Data V W} (h : Agree s d d') (i : Nat) :
    ((∃ x y, d.get i = some x ∧ d'.get i = some y ∧ (s.knows i = true → x = y)) ∨
      (d.get i = none ∧ d'.get i = none)) := by
  unfold Data.get
  rcases isSome_eq h.1 i with ⟨v, w, hv, hw⟩ | ⟨hv, hw⟩
  · rcases isSome_eq h.2 i with ⟨v', w', hv', hw'⟩ | ⟨hv', hw'⟩
    · left
      refine ⟨(v, v'), (w, w'), by simp [hv, hv'], by simp [hw, hw'], fun hk => ?_⟩
      simp only [Sh.knows, Bool.and_eq_true] at hk
      have e1 := knows_eq h.1 hk.1
      have e2 := knows_eq h.2 hk.2
      rw [hv, hw] at e1
      rw [hv', hw'] at e2
      rw [Option.some.inj e1, Option.some.inj e2]
    · right; simp [hv, hw, hv', hw']
  · right; simp [hv, hw]

theorem put_flow {s : Sh} {d d' : Data V W} (h : Agree s d d') (i : Nat) (x y : V × W) (k : Bool)
    (hk : k = true → x = y) : Agree (s.put i k) (d.put i x) (d'.put i y) :=
  ⟨agreeL_set h.1 i _ _ k fun e => by rw [hk e], agreeL_set h.2 i _ _ k fun e => by rw [hk e]⟩

theorem dyn_flow {s : Sh} {d d' : Data V W} (h : Agree s d d') (f : V × W → V × W → V × W) (a u : Nat) :
    Both (Agree (s.put u (s.knows a && s.knows u))) (dynCall f a u d) (dynCall f a u d') := by
  unfold dynCall
  rcases get_flow h a with ⟨x, y, hx, hy, hxy⟩ | ⟨hx, hy⟩
  · rcases get_flow h u with ⟨x', y', hx', hy', hxy'⟩ | ⟨hx', hy'⟩
    · simp only [hx, hy, hx', hy', Both]
      refine put_flow h u _ _ _ fun hk => ?_
      rw [Bool.and_eq_true] at hk
      rw [hxy hk.1, hxy' hk.2]
    · simp [hx, hy, hx', hy', Both]
  · simp [hx, hy, Both]

theorem combineInst_flow [Zero K] (o : Ops K V) {b : List Bool} {x y : List V} (h : AgreeL b x y)
    (is : List Nat) (cs : List K) :
    Both (fun v w => is.all (knows b) = true → v = w) (combineInst o x is cs) (combineInst o y is cs) := by
  cases is with
  | nil => simp [combineInst, Both]
  | cons i is =>
    cases cs with
    | nil => simp [combineInst, Both]
    | cons c cs =>
      unfold combineInst
      rcases isSome_eq h i with ⟨v, w, hv, hw⟩ | ⟨hv, hw⟩
      · simp only [hv, hw]
        have key : ∀ (l : List (Nat × K)) (Q : Prop) (acc acc' : Option V),
            (Q → ∀ p ∈ l, knows b p.1 = true) → Both (fun v w => Q → v = w) acc acc' →
            Both (fun v w => Q → v = w) (l.foldl (addInst o x) acc) (l.foldl (addInst o y) acc') := by
          intro l Q
          induction l with
          | nil => intro acc acc' _ R; exact R
          | cons p l ih =>
            intro acc acc' hQ R
            simp only [List.foldl_cons]
            refine ih _ _ (fun q p' hp' => hQ q p' (by simp [hp'])) ?_
            unfold addInst
            cases acc with
            | none => cases acc' with
              | none => simp [Both]
              | some w => exact absurd R (by simp [Both])
            | some v => cases acc' with
              | none => exact absurd R (by simp [Both])
              | some w =>
                rcases isSome_eq h p.1 with ⟨v', w', hv', hw'⟩ | ⟨hv', hw'⟩
                · simp only [hv', hw', Both]
                  intro q
                  have e := knows_eq h (hQ q p (by simp))
                  rw [hv', hw'] at e
                  rw [R q, Option.some.inj e]
                · simp [hv', hw', Both]
        refine key _ _ _ _ ?_ ?_
        · intro q p hp
          simp only [List.all_cons, Bool.and_eq_true, List.all_eq_true] at q
          exact q.2 _ (List.of_mem_zip hp).1
        · simp only [Both]
          intro q
          simp only [List.all_cons, Bool.and_eq_true] at q
          have e := knows_eq h q.1
          rw [hv, hw] at e
          rw [Option.some.inj e]
      · simp [hv, hw, Both]

theorem combineCall_flow [Zero K] (oV : Ops K V) (oW : Ops K W) {s : Sh} {d d' : Data V W} (h : Agree s d d')
    (f : V × W → V × W → V × W) (is : List Nat) (cs : List K) (a u : Nat) :
    Both (Agree (s.put u (s.knows a && is.all s.knows))) (combineCall oV oW f is cs a u d)
      (combineCall oV oW f is cs a u d') := by
  unfold combineCall
  by_cases hc : is.length ≠ cs.length ∨ is = [] ∨ u ∈ is.tail
  · simp [if_pos hc, Both]
  · rw [if_neg hc, if_neg hc]
    have h1 := combineInst_flow oV h.1 is cs
    have h2 := combineInst_flow oW h.2 is cs
    revert h1 h2
    cases combineInst oV d.st is cs <;> cases combineInst oV d'.st is cs <;>
      simp only [Both, IsEmpty.forall_iff, forall_const, imp_self] <;> try (intros; trivial)
    rename_i v v'
    intro hv
    cases combineInst oW d.tr is cs <;> cases combineInst oW d'.tr is cs <;>
      simp only [Both, IsEmpty.forall_iff, forall_const, imp_self] <;> try (intros; trivial)
    rename_i w w'
    intro hw
    rcases get_flow h a with ⟨x, y, hx, hy, hxy⟩ | ⟨hx, hy⟩
    · simp only [hx, hy]
      by_cases hl : u < s.st.length ∧ u < s.tr.length
      · rw [if_pos (by rw [h.1.1, h.2.1]; exact hl), if_pos (by rw [h.1.2.1, h.2.2.1]; exact hl)]
        simp only
        refine put_flow h u _ _ _ fun hk => ?_
        simp only [Bool.and_eq_true, List.all_eq_true, Sh.knows] at hk
        rw [hxy (by simp [Sh.knows, hk.1]), hv (by rw [List.all_eq_true]; exact fun i hi => (hk.2 i hi).1),
          hw (by rw [List.all_eq_true]; exact fun i hi => (hk.2 i hi).2)]
      · rw [if_neg (by rw [h.1.1, h.2.1]; exact hl), if_neg (by rw [h.1.2.1, h.2.2.1]; exact hl)]; trivial
    · simp only [hx, hy]

theorem set_known_self {b : List Bool} {x y : List V} (h : AgreeL b x y) (i : Nat) (v w : V)
    (hk : knows b i = true → v = w) : AgreeL b (x.set i v) (y.set i w) := by
  refine ⟨by simpa using h.1, by simpa using h.2.1, fun j hj => ?_⟩
  by_cases hij : i = j
  · subst hij
    by_cases hl : i < b.length
    · rw [List.getElem?_set_self (by rw [h.1]; exact hl), List.getElem?_set_self (by rw [h.2.1]; exact hl),
        hk (by simp [knows, hj])]
    · rw [List.getElem?_eq_none (by simp [h.1]; omega), List.getElem?_eq_none (by simp [h.2.1]; omega)]
  · rw [List.getElem?_set_ne hij, List.getElem?_set_ne hij]
    exact h.2.2 j hj

theorem mapSlot_flow {b : List Bool} {x y : List V} (h : AgreeL b x y) (f : V → V) (i : Nat) :
    Both (AgreeL b) (x[i]?.map fun v => x.set i (f v)) (y[i]?.map fun v => y.set i (f v)) := by
  rcases isSome_eq h i with ⟨v, w, hv, hw⟩ | ⟨hv, hw⟩
  · simp only [hv, hw, Option.map_some, Both]
    refine set_known_self h i _ _ fun hk => ?_
    have := knows_eq h hk
    rw [hv, hw] at this
    rw [Option.some.inj this]
  · simp [hv, hw, Both]

theorem flow_sound [Zero K] [DecidableEq K] (oV : Ops K V) (oW : Ops K W) (D : Dyn K V W) (c : Cmd K) {s : Sh}
    {d d' : Data V W} (h : Agree s d d') : Both (Agree (flow c s)) (exec oV oW D c d) (exec oV oW D c d') := by
  cases c with
  | copy a t f =>
    cases f
    · exact both_map (copyData_flow h.1 a t) fun x y hxy => ⟨hxy, h.2⟩
    · exact both_map (copyData_flow h.2 a t) fun x y hxy => ⟨h.1, hxy⟩
  | combine c t f =>
    cases f
    · exact both_map (linearCombine_flow oV h.1 c t) fun x y hxy => ⟨hxy, h.2⟩
    · exact both_map (linearCombine_flow oW h.2 c t) fun x y hxy => ⟨h.1, hxy⟩
  | hExp a u dt =>
    simp only [exec]
    by_cases ha : a = u
    · simp [ha, Both]
    · rw [if_neg ha, if_neg ha]; exact dyn_flow h _ a u
  | vExp a u dt => exact dyn_flow h _ a u
  | vImp a u dt => exact dyn_flow h _ a u
  | hImp a u dt => exact dyn_flow h _ a u
  | vImpExp a u dt => exact dyn_flow h _ a u
  | post u f =>
    cases f
    · have := mapSlot_flow h.1 D.postS u
      have := both_map (R' := Agree s) (f := fun x => (⟨x, d.tr⟩ : Data V W)) (g := fun x => ⟨x, d'.tr⟩) this
        fun x y hxy => ⟨hxy, h.2⟩
      simpa [exec, Option.map_map, Function.comp_def, flow] using this
    · have := mapSlot_flow h.2 D.postT u
      have := both_map (R' := Agree s) (f := fun x => (⟨d.st, x⟩ : Data V W)) (g := fun x => ⟨d'.st, x⟩) this
        fun x y hxy => ⟨h.1, hxy⟩
      simpa [exec, Option.map_map, Function.comp_def, flow] using this
  | filter u =>
    have := mapSlot_flow h.2 D.filt u
    have := both_map (R' := Agree s) (f := fun x => (⟨d.st, x⟩ : Data V W)) (g := fun x => ⟨d'.st, x⟩) this
      fun x y hxy => ⟨h.1, hxy⟩
    simpa [exec, Option.map_map, Function.comp_def, flow] using this
  | after a u w dt =>
    simp only [exec, flow]
    by_cases hc : a = w ∨ u = w
    · simp [if_pos hc, Both]
    · rw [if_neg hc, if_neg hc]
      rcases get_flow h a with ⟨x, y, hx, hy, hxy⟩ | ⟨hx, hy⟩
      · rcases get_flow h u with ⟨x', y', hx', hy', -⟩ | ⟨hx', hy'⟩
        · rcases get_flow h w with ⟨z, z', hz, hz', hzz⟩ | ⟨hz, hz'⟩
          · simp only [hx, hy, hx', hy', hz, hz', Both]
            refine put_flow (put_flow h u _ _ _ fun hk => by rw [hxy hk]) w _ _ _ fun hk => ?_
            rw [Bool.and_eq_true] at hk
            rw [hxy hk.1, hzz hk.2]
          · simp [hx, hy, hx', hy', hz, hz', Both]
        · simp [hx, hy, hx', hy', Both]
      · simp [hx, hy, Both]
  | expCombine is cs a u dt => exact combineCall_flow oV oW h _ is cs a u
  | impCombine is cs a u dt => exact combineCall_flow oV oW h _ is cs a u
  | afterCombine u w dt =>
    simp only [exec, flow]
    by_cases hc : u = w
    · simp [if_pos hc, Both]
    · rw [if_neg hc, if_neg hc]
      rcases get_flow h u with ⟨x, y, hx, hy, hxy⟩ | ⟨hx, hy⟩
      · rcases get_flow h w with ⟨z, z', hz, hz', hzz⟩ | ⟨hz, hz'⟩
        · simp only [hx, hy, hz, hz', Both]
          refine put_flow (put_flow h u _ _ _ fun hk => by rw [hxy hk]) w _ _ _ fun hk => ?_
          rw [Bool.and_eq_true] at hk
          rw [hxy hk.1, hzz hk.2]
        · simp [hx, hy, hz, hz', Both]
      · simp [hx, hy, Both]

theorem flowRun_sound [Zero K] [DecidableEq K] (oV : Ops K V) (oW : Ops K W) (D : Dyn K V W) (p : List (Cmd K))
    {s : Sh} {d d' : Data V W} (h : Agree s d d') :
    Both (Agree (flowRun p s)) (run oV oW D p d) (run oV oW D p d') := by
  induction p generalizing s d d' with
  | nil => exact h
  | cons c p ih =>
    have := flow_sound oV oW D c h
    simp only [run, flowRun]
    revert this
    cases exec oV oW D c d <;> cases exec oV oW D c d' <;> simp only [Both, IsEmpty.forall_iff, forall_const,
      Option.bind_none, Option.bind_some]
    exact fun h' => ih h'

theorem agreeL_start {n : Nat} (x y : List V) (v : V) (hx : x.length = n + 1) (hy : y.length = n + 1)
    (h1 : x[0]? = some v) (h2 : y[0]? = some v) : AgreeL (true :: List.replicate n false) x y := by
  refine ⟨by simp [hx], by simp [hy], fun i hi => ?_⟩
  cases i with
  | zero => rw [h1, h2]
  | succ i =>
    simp only [List.getElem?_cons_succ, List.getElem?_replicate] at hi
    split_ifs at hi
    simp at hi

theorem agree_start {n : Nat} {d d' : Data V W} {u : V × W} (h : Current (n + 1) d u) (h' : Current (n + 1) d' u) :
    Agree ⟨true :: List.replicate n false, true :: List.replicate n false⟩ d d' := by
  have g : ∀ (e : Data V W), e.get 0 = some u → e.st[0]? = some u.1 ∧ e.tr[0]? = some u.2 := by
    intro e he
    unfold Data.get at he
    split at he
    · rename_i v w hv hw
      simp only [Option.some.injEq] at he
      subst he
      exact ⟨hv, hw⟩
    · simp at he
  obtain ⟨a, b⟩ := g d h.2.2
  obtain ⟨a', b'⟩ := g d' h'.2.2
  exact ⟨agreeL_start _ _ _ h.1 h'.1 a a', agreeL_start _ _ _ h.2.1 h'.2.1 b b'⟩

/-- Without tracers, all tracer slots agree. -/
theorem agree_start_noTracers [Subsingleton W] {n : Nat} {d d' : Data V W} {u : V × W} (h : Current (n + 1) d u)
    (h' : Current (n + 1) d' u) :
    Agree ⟨true :: List.replicate n false, true :: List.replicate n true⟩ d d' := by
  refine ⟨(agree_start h h').1, by simp [h.2.1], by simp [h'.2.1], fun i hi => ?_⟩
  by_cases hl : i < n + 1
  · rw [List.getElem?_eq_getElem (by rw [h.2.1]; exact hl), List.getElem?_eq_getElem (by rw [h'.2.1]; exact hl),
      Subsingleton.elim (d.tr[i]'(by rw [h.2.1]; exact hl)) (d'.tr[i]'(by rw [h'.2.1]; exact hl))]
  · rw [List.getElem?_eq_none (by simp; omega)] at hi; simp at hi

end Flow

/-! ### No failure -/

section Ok
variable {K V W : Type*}

/-- The call uses only slots below `n` and passes the checks. -/
def okCmd (n : Nat) : Cmd K → Bool
  | .copy s t _ => s < n && t < n
  | .combine c t _ => t < c.length && c.length ≤ n
  | .hExp a u _ => a != u && a < n && u < n
  | .vExp a u _ => a < n && u < n
  | .vImp a u _ => a < n && u < n
  | .hImp a u _ => a < n && u < n
  | .vImpExp a u _ => a < n && u < n
  | .post u _ => u < n
  | .filter u => u < n
  | .after a u w _ => a != w && u != w && a < n && u < n && w < n
  | .expCombine is cs a u _ =>
    is.length == cs.length && is != [] && !(is.tail.contains u) && a < n && u < n && is.all (· < n)
  | .impCombine is cs a u _ =>
    is.length == cs.length && is != [] && !(is.tail.contains u) && a < n && u < n && is.all (· < n)
  | .afterCombine u w _ => u != w && u < n && w < n

def HasSlots (n : Nat) (d : Data V W) : Prop := d.st.length = n ∧ d.tr.length = n

theorem get_ok {n : Nat} {d : Data V W} (h : HasSlots n d) {i : Nat} (hi : i < n) : ∃ x, d.get i = some x := by
  unfold Data.get
  rw [List.getElem?_eq_getElem (by rw [h.1]; exact hi), List.getElem?_eq_getElem (by rw [h.2]; exact hi)]
  exact ⟨_, rfl⟩

theorem put_ok {n : Nat} {d : Data V W} (h : HasSlots n d) (i : Nat) (x : V × W) : HasSlots n (d.put i x) := by
  simpa [HasSlots, Data.put] using h

theorem dyn_ok {n : Nat} {d : Data V W} (h : HasSlots n d) (f : V × W → V × W → V × W) {a u : Nat} (ha : a < n)
    (hu : u < n) : ∃ d', dynCall f a u d = some d' ∧ HasSlots n d' := by
  obtain ⟨x, hx⟩ := get_ok h ha
  obtain ⟨y, hy⟩ := get_ok h hu
  exact ⟨_, by simp [dynCall, hx, hy], put_ok h u (f x y)⟩

theorem addInst_ok (o : Ops K V) (slots : List V) (l : List (Nat × K)) (hl : ∀ p ∈ l, p.1 < slots.length) (v : V) :
    ∃ w, l.foldl (addInst o slots) (some v) = some w := by
  induction l generalizing v with
  | nil => exact ⟨v, rfl⟩
  | cons p l ih =>
    have := hl p (by simp)
    simp only [List.foldl_cons, addInst, List.getElem?_eq_getElem this]
    exact ih (fun q hq => hl q (by simp [hq])) _

theorem combineInst_ok (o : Ops K V) (slots : List V) (is : List Nat) (cs : List K) (h1 : is.length = cs.length)
    (h2 : is ≠ []) (h3 : ∀ i ∈ is, i < slots.length) : ∃ w, combineInst o slots is cs = some w := by
  cases is with
  | nil => exact absurd rfl h2
  | cons i is => cases cs with
    | nil => simp at h1
    | cons c cs =>
      have := h3 i (by simp)
      simp only [combineInst, List.getElem?_eq_getElem this]
      exact addInst_ok o slots _ (fun p hp => h3 _ (by simp [(List.of_mem_zip hp).1])) _

theorem combineCall_ok (oV : Ops K V) (oW : Ops K W) {n : Nat} {d : Data V W} (h : HasSlots n d)
    (f : V × W → V × W → V × W) {is : List Nat} {cs : List K} {a u : Nat} (h1 : is.length = cs.length)
    (h2 : is ≠ []) (h3 : u ∉ is.tail) (ha : a < n) (hu : u < n) (h4 : ∀ i ∈ is, i < n) :
    ∃ d', combineCall oV oW f is cs a u d = some d' ∧ HasSlots n d' := by
  obtain ⟨v, hv⟩ := combineInst_ok oV d.st is cs h1 h2 (by rw [h.1]; exact h4)
  obtain ⟨w, hw⟩ := combineInst_ok oW d.tr is cs h1 h2 (by rw [h.2]; exact h4)
  obtain ⟨x, hx⟩ := get_ok h ha
  refine ⟨d.put u (f x (v, w)), ?_, put_ok h _ _⟩
  unfold combineCall
  rw [if_neg (by simp [h1, h2, h3])]
  simp only [hv, hw, hx]
  rw [if_pos (by rw [h.1, h.2]; exact ⟨hu, hu⟩)]

theorem copyData_ok {n s t : Nat} {l : List V} (h : l.length = n) (hs : s < n) (ht : t < n) :
    ∃ l', copyData (s : Int) (t : Int) l = some l' ∧ l'.length = n := by
  refine ⟨_, copyData_some (List.getElem?_eq_getElem (by omega)) (by omega), by simpa using h⟩

theorem linearCombine_ok [Zero K] [DecidableEq K] (o : Ops K V) {n t : Nat} {c : List K} {l : List V}
    (h : l.length = n) (ht : t < c.length) (hc : c.length ≤ n) :
    ∃ l', linearCombine o c (t : Int) l = some l' ∧ l'.length = n := by
  unfold linearCombine
  rw [if_neg (by omega)]
  simp only [Int.toNat_natCast, List.getElem?_eq_getElem ht,
    List.getElem?_eq_getElem (show t < l.length by omega)]
  rw [if_neg (by omega)]
  exact ⟨_, rfl, by simpa using h⟩

theorem exec_ok [Zero K] [DecidableEq K] (oV : Ops K V) (oW : Ops K W) (D : Dyn K V W) {n : Nat} {c : Cmd K}
    (hc : okCmd n c = true) {d : Data V W} (h : HasSlots n d) :
    ∃ d', exec oV oW D c d = some d' ∧ HasSlots n d' := by
  cases c with
  | copy s t f =>
    simp only [okCmd, Bool.and_eq_true, decide_eq_true_eq] at hc
    cases f
    · obtain ⟨l, e, hl⟩ := copyData_ok h.1 hc.1 hc.2
      exact ⟨⟨l, d.tr⟩, by simp only [exec, e, Option.map_some], hl, h.2⟩
    · obtain ⟨l, e, hl⟩ := copyData_ok h.2 hc.1 hc.2
      exact ⟨⟨d.st, l⟩, by simp only [exec, e, Option.map_some], h.1, hl⟩
  | combine c t f =>
    simp only [okCmd, Bool.and_eq_true, decide_eq_true_eq] at hc
    cases f
    · obtain ⟨l, e, hl⟩ := linearCombine_ok oV h.1 hc.1 hc.2
      exact ⟨⟨l, d.tr⟩, by simp only [exec, e, Option.map_some], hl, h.2⟩
    · obtain ⟨l, e, hl⟩ := linearCombine_ok oW h.2 hc.1 hc.2
      exact ⟨⟨d.st, l⟩, by simp only [exec, e, Option.map_some], h.1, hl⟩
  | hExp a u dt =>
    simp only [okCmd, Bool.and_eq_true, decide_eq_true_eq, bne_iff_ne, ne_eq] at hc
    simp only [exec]
    rw [if_neg hc.1.1]
    exact dyn_ok h _ hc.1.2 hc.2
  | vExp a u dt =>
    simp only [okCmd, Bool.and_eq_true, decide_eq_true_eq] at hc
    exact dyn_ok h _ hc.1 hc.2
  | vImp a u dt =>
    simp only [okCmd, Bool.and_eq_true, decide_eq_true_eq] at hc
    exact dyn_ok h _ hc.1 hc.2
  | hImp a u dt =>
    simp only [okCmd, Bool.and_eq_true, decide_eq_true_eq] at hc
    exact dyn_ok h _ hc.1 hc.2
  | vImpExp a u dt =>
    simp only [okCmd, Bool.and_eq_true, decide_eq_true_eq] at hc
    exact dyn_ok h _ hc.1 hc.2
  | post u f =>
    simp only [okCmd, decide_eq_true_eq] at hc
    cases f
    · refine ⟨⟨d.st.set u (D.postS (d.st[u]'(by rw [h.1]; exact hc))), d.tr⟩, ?_, by simpa using h.1, h.2⟩
      simp only [exec, List.getElem?_eq_getElem (show u < d.st.length by rw [h.1]; exact hc), Option.map_some]
    · refine ⟨⟨d.st, d.tr.set u (D.postT (d.tr[u]'(by rw [h.2]; exact hc)))⟩, ?_, h.1, by simpa using h.2⟩
      simp only [exec, List.getElem?_eq_getElem (show u < d.tr.length by rw [h.2]; exact hc), Option.map_some]
  | filter u =>
    simp only [okCmd, decide_eq_true_eq] at hc
    refine ⟨⟨d.st, d.tr.set u (D.filt (d.tr[u]'(by rw [h.2]; exact hc)))⟩, ?_, h.1, by simpa using h.2⟩
    simp only [exec, List.getElem?_eq_getElem (show u < d.tr.length by rw [h.2]; exact hc), Option.map_some]
  | after a u w dt =>
    simp only [okCmd, Bool.and_eq_true, decide_eq_true_eq, bne_iff_ne, ne_eq] at hc
    obtain ⟨x, hx⟩ := get_ok h hc.1.1.2
    obtain ⟨y, hy⟩ := get_ok h hc.1.2
    obtain ⟨z, hz⟩ := get_ok h hc.2
    refine ⟨(d.put u (D.hyper dt x)).put w (D.work x z), ?_, put_ok (put_ok h _ _) _ _⟩
    simp only [exec]
    rw [if_neg (by simp [hc.1.1.1.1, hc.1.1.1.2])]
    simp only [hx, hy, hz]
  | expCombine is cs a u dt =>
    simp only [okCmd, Bool.and_eq_true, decide_eq_true_eq, bne_iff_ne, ne_eq, beq_iff_eq, Bool.not_eq_true',
      List.contains_eq_mem, decide_eq_false_iff_not, List.all_eq_true] at hc
    exact combineCall_ok oV oW h _ hc.1.1.1.1.1 hc.1.1.1.1.2 hc.1.1.1.2 hc.1.1.2 hc.1.2 hc.2
  | impCombine is cs a u dt =>
    simp only [okCmd, Bool.and_eq_true, decide_eq_true_eq, bne_iff_ne, ne_eq, beq_iff_eq, Bool.not_eq_true',
      List.contains_eq_mem, decide_eq_false_iff_not, List.all_eq_true] at hc
    exact combineCall_ok oV oW h _ hc.1.1.1.1.1 hc.1.1.1.1.2 hc.1.1.1.2 hc.1.1.2 hc.1.2 hc.2
  | afterCombine u w dt =>
    simp only [okCmd, Bool.and_eq_true, decide_eq_true_eq, bne_iff_ne, ne_eq] at hc
    obtain ⟨x, hx⟩ := get_ok h hc.1.2
    obtain ⟨z, hz⟩ := get_ok h hc.2
    refine ⟨(d.put u (D.hyper dt x)).put w (D.work x z), ?_, put_ok (put_ok h _ _) _ _⟩
    simp only [exec]
    rw [if_neg hc.1.1]
    simp only [hx, hz]

theorem run_ok [Zero K] [DecidableEq K] (oV : Ops K V) (oW : Ops K W) (D : Dyn K V W) {n : Nat} {p : List (Cmd K)}
    (hp : p.all (okCmd n) = true) {d : Data V W} (h : HasSlots n d) :
    ∃ d', run oV oW D p d = some d' ∧ HasSlots n d' := by
  induction p generalizing d with
  | nil => exact ⟨d, rfl, h⟩
  | cons c p ih =>
    rw [List.all_cons, Bool.and_eq_true] at hp
    obtain ⟨d1, e1, h1⟩ := exec_ok oV oW D hp.1 h
    obtain ⟨d2, e2, h2⟩ := ih hp.2 h1
    exact ⟨d2, by simp only [run, e1, Option.bind_some, e2], h2⟩

/-- A program that cannot fail and whose slot 0 is determined in the end gives the same result whatever the other
slots contained. -/
theorem same_result [Zero K] [DecidableEq K] (oV : Ops K V) (oW : Ops K W) (D : Dyn K V W) {n : Nat}
    {p : List (Cmd K)} (hp : p.all (okCmd n) = true) {s : Sh} (hs : (flowRun p s).knows 0 = true) (hn : 0 < n)
    {d d' : Data V W} (h : Agree s d d') (hd : HasSlots n d) :
    ∃ e e' u, run oV oW D p d = some e ∧ run oV oW D p d' = some e' ∧ e.get 0 = some u ∧ e'.get 0 = some u := by
  obtain ⟨e, he, hse⟩ := run_ok oV oW D hp hd
  have := flowRun_sound oV oW D p h
  rw [he] at this
  cases he' : run oV oW D p d' with
  | none => rw [he'] at this; exact absurd this (by simp [Both])
  | some e' =>
    rw [he'] at this
    simp only [Both] at this
    obtain ⟨x, hx⟩ := get_ok hse hn
    rcases get_flow this 0 with ⟨y, z, hy, hz, hyz⟩ | ⟨hy, _⟩
    · exact ⟨e, e', y, he, rfl, hy, by rw [hz, hyz hs]⟩
    · rw [hx] at hy; simp at hy

end Ok

end Verif.Steps
