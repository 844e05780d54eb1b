/-
Two models side by side, for whole runs: from related states and tracers, whatever the other slots hold, runs of any number
of steps end in related states and tracers.
-/
import Verif.Steps.Relate
import Verif.Whole.Runs

namespace Verif.Steps

variable {K V W V' W' : Type*}

/-- Write a Strang step out as a list of calls. -/
local macro "flatten" : tactic => `(tactic| (
  simp only [Scheme.prog, Scheme.slots, erkStep, Erk.block, forwardEuler, rk4, ssp3, kgu35, ssprk53, strangStep,
    strangStart, copy2, copySS, comb2, post2, expH, expHV, expV, impV, List.cons_append, List.nil_append,
    List.append_assoc, List.append_nil, if_true, if_false, Bool.false_eq_true]))

local macro "floweval" : tactic => `(tactic| (
  flatten; simp [flowRun, flow, Sh.put, Sh.knows, knows, combKnown, List.replicate]))

set_option maxHeartbeats 4000000 in
theorem flow_strang_first [Field K] [DecidableEq K] (m : Erk) (oc : K) (last : Bool) (dt : K) :
    let r := flowRun ((Scheme.strang m oc true last).prog dt)
      ⟨[true, false, false, false, false], [true, false, false, false, false]⟩
    r.knows 0 = true ∧ r.knows 1 = true := by
  cases m <;> cases last <;> floweval

section
variable {R : V → V' → Prop} {b : List Bool} {x : List V} {y : List V'}

theorem relL_weaken {b' : List Bool} (h : RelL R b x y) (hl : b'.length = b.length)
    (hb : ∀ i, knows b' i = true → knows b i = true) : RelL R b' x y := by
  refine ⟨h.1.trans hl.symm, h.2.1.trans hl.symm, fun i v w hi hv hw => ?_⟩
  have := hb i (by simp [knows, hi])
  rcases relL_get h i with ⟨v', w', hv', hw', hr⟩ | ⟨hv', -⟩
  · rw [hv] at hv'; rw [hw] at hw'
    cases hv'; cases hw'
    exact hr this
  · rw [hv] at hv'; cases hv'

theorem relL_one {x : List V} {y : List V'} {n : Nat} (hx : x.length = n + 1) (hy : y.length = n + 1) {v : V} {w : V'}
    (hv : x[0]? = some v) (hw : y[0]? = some w) (h : R v w) : RelL R (true :: List.replicate n false) x y := by
  refine ⟨by simpa using hx, by simpa using hy, fun i v' w' hi hv' hw' => ?_⟩
  match i with
  | 0 =>
    rw [hv] at hv'; rw [hw] at hw'
    cases hv'; cases hw'
    exact h
  | i + 1 => simp [List.getElem?_replicate] at hi

theorem relL_trivial {x : List V} {y : List V'} {n : Nat} (hx : x.length = n) (hy : y.length = n) (b : List Bool)
    (hb : b.length = n) (h : ∀ v w, R v w) : RelL R b x y :=
  ⟨hx.trans hb.symm, hy.trans hb.symm, fun _ v w _ _ _ => h v w⟩

end

section
variable [Field K] [DecidableEq K] {oV : Ops K V} {oW : Ops K W} {D : Dyn K V W} {oV' : Ops K V'} {oW' : Ops K W'}
  {D' : Dyn K V' W'} {RS : V → V' → Prop} {RT : W → W' → Prop} {d : Data V W} {d' : Data V' W'} {u : V × W}
  {u' : V' × W'}

/-- The program `p` ends in both models, in related states and tracers. -/
def EndsRelated (oV : Ops K V) (oW : Ops K W) (D : Dyn K V W) (oV' : Ops K V') (oW' : Ops K W') (D' : Dyn K V' W')
    (RS : V → V' → Prop) (RT : W → W' → Prop) (p : List (Cmd K)) (d : Data V W) (d' : Data V' W') : Prop :=
  ∃ e e' v v', run oV oW D p d = some e ∧ run oV' oW' D' p d' = some e' ∧ e.get 0 = some v ∧ e'.get 0 = some v' ∧
    Pairs RS RT v v'

theorem related_prog (M : Mirrors oV oW D oV' oW' D' RS RT) {p : List (Cmd K)} {n : Nat} {s : Sh}
    (ok : p.all (okCmd n) = true) (h : Rel RS RT s d d') (hd : HasSlots n d) :
    ∃ e e', run oV oW D p d = some e ∧ run oV' oW' D' p d' = some e' ∧ Rel RS RT (flowRun p s) e e' ∧
      HasSlots n e ∧ HasSlots n e' := by
  obtain ⟨e, he, hs⟩ := run_ok oV oW D ok hd
  have hr := run_rel M p h
  rw [he] at hr
  cases he' : run oV' oW' D' p d' with
  | none => rw [he'] at hr; exact absurd hr (by simp [BothRel])
  | some e' =>
    rw [he'] at hr
    simp only [BothRel] at hr
    refine ⟨e, e', he, rfl, hr, hs, ?_, ?_⟩
    · rw [hr.1.2.1, ← hr.1.1, hs.1]
    · rw [hr.2.2.1, ← hr.2.1, hs.2]

theorem rel_read {s : Sh} {n : Nat} (h : Rel RS RT s d d') (hd : HasSlots n d) {i : Nat} (hi : i < n)
    (hk : s.knows i = true) : ∃ v v', d.get i = some v ∧ d'.get i = some v' ∧ Pairs RS RT v v' := by
  obtain ⟨x, hx⟩ := get_ok hd hi
  rcases get_rel h i with ⟨v, v', hv, hv', hr⟩ | ⟨hv, -⟩
  · exact ⟨v, v', hv, hv', hr hk⟩
  · rw [hx] at hv; cases hv

theorem both_parts {d : Data V W} {i : Nat} {u : V × W} (h : d.get i = some u) :
    d.st[i]? = some u.1 ∧ d.tr[i]? = some u.2 := by
  unfold Data.get at h
  split at h
  · rename_i v w hv hw
    cases h
    exact ⟨hv, hw⟩
  · cases h

theorem related_step (M : Mirrors oV oW D oV' oW' D' RS RT) (S : Scheme K)
    (hS : S.CopiesTracers ∨ S.Fresh ∧ ∀ w w', RT w w') (dt : K) (hd : Current S.slots d u)
    (hd' : Current S.slots d' u') (h : Pairs RS RT u u') :
    ∃ e e' v v', run oV oW D (S.prog dt) d = some e ∧ run oV' oW' D' (S.prog dt) d' = some e' ∧
      Current S.slots e v ∧ Current S.slots e' v' ∧ Pairs RS RT v v' := by
  obtain ⟨g1, g2⟩ := both_parts hd.2.2
  obtain ⟨g1', g2'⟩ := both_parts hd'.2.2
  have key : ∀ t : Bool, Determined S t dt → Rel RS RT ⟨true :: List.replicate (S.slots - 1) false,
      true :: List.replicate (S.slots - 1) t⟩ d d' → ∃ e e' v v', run oV oW D (S.prog dt) d = some e ∧
      run oV' oW' D' (S.prog dt) d' = some e' ∧ Current S.slots e v ∧ Current S.slots e' v' ∧ Pairs RS RT v v' := by
    intro t ht hr
    obtain ⟨e, e', he, he', hR, hs, hs'⟩ := related_prog M (ok_all S dt) hr ⟨hd.1, hd.2.1⟩
    obtain ⟨v, v', hv, hv', hp⟩ := rel_read hR hs (show 0 < S.slots by rw [slots_pos]; omega) ht
    exact ⟨e, e', v, v', he, he', ⟨hs.1, hs.2, hv⟩, ⟨hs'.1, hs'.2, hv'⟩, hp⟩
  have st : RelL RS (true :: List.replicate (S.slots - 1) false) d.st d'.st :=
    relL_one (by rw [← slots_pos]; exact hd.1) (by rw [← slots_pos]; exact hd'.1) g1 g1' h.1
  by_cases hc : S.CopiesTracers
  · exact key false (flow_tracers S hc dt) ⟨st, relL_one (by rw [← slots_pos]; exact hd.2.1)
      (by rw [← slots_pos]; exact hd'.2.1) g2 g2' h.2⟩
  · obtain ⟨hf, ht⟩ := hS.resolve_left hc
    exact key true (flow_state S hf hc dt) ⟨st, relL_trivial hd.2.1 hd'.2.1 _ (by
      have := slots_pos S
      simp only [List.length_cons, List.length_replicate]
      omega) ht⟩

/-- Runs of steps that begin afresh. -/
theorem related_run (M : Mirrors oV oW D oV' oW' D' RS RT) (S : Scheme K)
    (hS : S.CopiesTracers ∨ S.Fresh ∧ ∀ w w', RT w w') (dts : List K) (hd : Current S.slots d u)
    (hd' : Current S.slots d' u') (h : Pairs RS RT u u') :
    EndsRelated oV oW D oV' oW' D' RS RT (dts.flatMap S.prog) d d' := by
  induction dts generalizing d d' u u' with
  | nil => exact ⟨d, d', u, u', rfl, rfl, hd.2.2, hd'.2.2, h⟩
  | cons dt dts ih =>
    obtain ⟨e, e', v, v', he, he', hv, hv', hp⟩ := related_step M S hS dt hd hd' h
    obtain ⟨f, f', w, w', hf, hf', hw, hw', hq⟩ := ih hv hv' hp
    refine ⟨f, f', w, w', ?_, ?_, hw, hw', hq⟩
    · rw [List.flatMap_cons, run_append, he, Option.bind_some, hf]
    · rw [List.flatMap_cons, run_append, he', Option.bind_some, hf']

theorem rel_two {s : Sh} {n : Nat} (h : Rel RS RT s d d') (hd : HasSlots (n + 2) d) (h0 : s.knows 0 = true)
    (h1 : s.knows 1 = true) :
    Rel RS RT ⟨true :: true :: List.replicate n false, true :: true :: List.replicate n false⟩ d d' := by
  have e1 : s.st.length = n + 2 := by rw [← h.1.1, hd.1]
  have e2 : s.tr.length = n + 2 := by rw [← h.2.1, hd.2]
  simp only [Sh.knows, Bool.and_eq_true] at h0 h1
  refine ⟨relL_weaken h.1 (by simp [e1]) fun i hi => ?_, relL_weaken h.2 (by simp [e2]) fun i hi => ?_⟩
  · match i with
    | 0 => exact h0.1
    | 1 => exact h1.1
    | i + 2 =>
      by_cases hn : i < n <;> simp [knows, List.getElem?_replicate, hn] at hi
  · match i with
    | 0 => exact h0.2
    | 1 => exact h1.2
    | i + 2 =>
      by_cases hn : i < n <;> simp [knows, List.getElem?_replicate, hn] at hi

theorem related_strang_next (M : Mirrors oV oW D oV' oW' D' RS RT) (m : Erk) (oc : K) (dt : K) (dts : List K)
    (hd : HasSlots 5 d)
    (h : Rel RS RT ⟨[true, true, false, false, false], [true, true, false, false, false]⟩ d d') :
    EndsRelated oV oW D oV' oW' D' RS RT (strangRun oc m false (dt :: dts)) d d' := by
  induction dts generalizing d d' dt with
  | nil =>
    obtain ⟨e, e', he, he', hR, hs, hs'⟩ := related_prog M (ok_all (.strang m oc false true) dt) h hd
    obtain ⟨v, v', hv, hv', hp⟩ := rel_read hR hs (show 0 < 5 by omega) (flow_strang m oc true dt).1
    exact ⟨e, e', v, v', he, he', hv, hv', hp⟩
  | cons dt' dts ih =>
    obtain ⟨e, e', he, he', hR, hs, hs'⟩ := related_prog M (ok_all (.strang m oc false false) dt) h hd
    obtain ⟨f, f', w, w', hf, hf', hw, hw', hq⟩ := ih dt' hs
      (rel_two (n := 3) hR hs (flow_strang m oc false dt).1 (flow_strang m oc false dt).2)
    refine ⟨f, f', w, w', ?_, ?_, hw, hw', hq⟩
    · simp only [Scheme.prog] at he
      rw [strangRun, run_append, he]
      exact hf
    · simp only [Scheme.prog] at he'
      rw [strangRun, run_append, he']
      exact hf'

/-- Runs of the Strang scheme, whose steps hand an increment to the next. -/
theorem related_strang (M : Mirrors oV oW D oV' oW' D' RS RT) (m : Erk) (oc : K) (dts : List K) (hd : Current 5 d u)
    (hd' : Current 5 d' u') (h : Pairs RS RT u u') :
    EndsRelated oV oW D oV' oW' D' RS RT (strangRun oc m true dts) d d' := by
  obtain ⟨g1, g2⟩ := both_parts hd.2.2
  obtain ⟨g1', g2'⟩ := both_parts hd'.2.2
  have hr : Rel RS RT ⟨[true, false, false, false, false], [true, false, false, false, false]⟩ d d' :=
    ⟨relL_one (n := 4) hd.1 hd'.1 g1 g1' h.1, relL_one (n := 4) hd.2.1 hd'.2.1 g2 g2' h.2⟩
  match dts with
  | [] => exact ⟨d, d', u, u', rfl, rfl, hd.2.2, hd'.2.2, h⟩
  | [dt] =>
    obtain ⟨e, e', he, he', hR, hs, hs'⟩ := related_prog M (ok_all (.strang m oc true true) dt) hr ⟨hd.1, hd.2.1⟩
    obtain ⟨v, v', hv, hv', hp⟩ := rel_read hR hs (show 0 < 5 by omega) (flow_strang_first m oc true dt).1
    exact ⟨e, e', v, v', he, he', hv, hv', hp⟩
  | dt :: dt' :: dts =>
    obtain ⟨e, e', he, he', hR, hs, hs'⟩ := related_prog M (ok_all (.strang m oc true false) dt) hr ⟨hd.1, hd.2.1⟩
    obtain ⟨f, f', w, w', hf, hf', hw, hw', hq⟩ := related_strang_next M m oc dt' dts hs
      (rel_two (n := 3) hR hs (flow_strang_first m oc false dt).1 (flow_strang_first m oc false dt).2)
    refine ⟨f, f', w, w', ?_, ?_, hw, hw', hq⟩
    · simp only [Scheme.prog] at he
      rw [strangRun, run_append, he]
      exact hf
    · simp only [Scheme.prog] at he'
      rw [strangRun, run_append, he']
      exact hf'

/-! ### All slots related -/

/-- Everything known. -/
def Sh.full (n : Nat) : Sh := ⟨List.replicate n true, List.replicate n true⟩

omit [DecidableEq K] [Field K] in
theorem knows_full {n i : Nat} (hi : i < n) : knows (List.replicate n true) i = true := by
  simp [knows, List.getElem?_replicate, hi]

theorem comb_full (c : List K) (n : Nat) : combKnown c (List.replicate n true) = true := by
  unfold combKnown
  induction n generalizing c with
  | zero => simp
  | succ n ih => cases c <;> simp_all [List.replicate_succ]

theorem flow_full {n : Nat} (c : Cmd K) (hc : okCmd n c = true) : flow c (Sh.full n) = Sh.full n := by
  have set_full : ∀ i, (List.replicate n true).set i true = List.replicate n true := fun i => by simp
  cases c with
  | copy s t w =>
    simp only [okCmd, Bool.and_eq_true, decide_eq_true_eq] at hc
    cases w <;> simp only [flow, Sh.full, knows_full hc.1, set_full]
  | combine c t w => cases w <;> simp only [flow, Sh.full, comb_full, set_full]
  | post u w => rfl
  | filter u => rfl
  | expCombine is cs a u dt =>
    simp only [okCmd, Bool.and_eq_true, decide_eq_true_eq, List.all_eq_true] at hc
    have : is.all (Sh.full n).knows = true := by
      rw [List.all_eq_true]
      exact fun i hi => by simp [Sh.knows, Sh.full, knows_full (hc.2 i hi)]
    rw [flow, this]
    simp [Sh.put, Sh.knows, Sh.full, knows_full hc.1.1.2]
  | impCombine is cs a u dt =>
    simp only [okCmd, Bool.and_eq_true, decide_eq_true_eq, List.all_eq_true] at hc
    have : is.all (Sh.full n).knows = true := by
      rw [List.all_eq_true]
      exact fun i hi => by simp [Sh.knows, Sh.full, knows_full (hc.2 i hi)]
    rw [flow, this]
    simp [Sh.put, Sh.knows, Sh.full, knows_full hc.1.1.2]
  | _ =>
    simp only [okCmd, Bool.and_eq_true, decide_eq_true_eq, bne_iff_ne] at hc
    simp_all [flow, Sh.put, Sh.knows, Sh.full, knows, List.getElem?_replicate]

theorem flowRun_full {n : Nat} (p : List (Cmd K)) (hp : p.all (okCmd n) = true) : flowRun p (Sh.full n) = Sh.full n := by
  induction p with
  | nil => rfl
  | cons c p ih =>
    rw [List.all_cons, Bool.and_eq_true] at hp
    rw [flowRun, flow_full c hp.1, ih hp.2]

omit [DecidableEq K] [Field K] in
theorem relL_full {α β : Type*} {R : α → β → Prop} {x : List α} {y : List β} {n : Nat} (h : List.Forall₂ R x y)
    (hl : x.length = n) : RelL R (List.replicate n true) x y := by
  refine ⟨by simpa using hl, by rw [← h.length_eq]; simpa using hl, fun i v w _ hv hw => ?_⟩
  rw [List.forall₂_iff_get] at h
  obtain ⟨hi, rfl⟩ := List.getElem?_eq_some_iff.1 hv
  obtain ⟨hi', rfl⟩ := List.getElem?_eq_some_iff.1 hw
  exact h.2 i hi hi'

/-- If all slots are related, every program that keeps to its slots ends with the first slots related. -/
theorem related_full (M : Mirrors oV oW D oV' oW' D' RS RT) {p : List (Cmd K)} {n : Nat} (hn : 0 < n)
    (ok : p.all (okCmd n) = true) (hd : HasSlots n d) (hs : List.Forall₂ RS d.st d'.st)
    (ht : List.Forall₂ RT d.tr d'.tr) : EndsRelated oV oW D oV' oW' D' RS RT p d d' := by
  obtain ⟨e, e', he, he', hR, hz, hz'⟩ := related_prog M (s := Sh.full n) ok ⟨relL_full hs hd.1, relL_full ht hd.2⟩ hd
  rw [flowRun_full p ok] at hR
  obtain ⟨v, v', hv, hv', hp⟩ := rel_read hR hz hn (by simp [Sh.knows, Sh.full, knows_full hn])
  exact ⟨e, e', v, v', he, he', hv, hv', hp⟩

end

end Verif.Steps
