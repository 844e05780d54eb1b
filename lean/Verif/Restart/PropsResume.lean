/-
C96: what a run resumed from a restart file does.
-/
import Verif.Restart.Props
import Verif.Run.Props
import Verif.Steps.PropsConst

namespace Verif.Restart

open Verif.TimeObj Verif.Run

/-! ### Times and lengths of steps -/

theorem stepOnce_sync (c c' : Cfg) (hd : c'.dt = c.dt) (he : c'.tend = c.tend) (s u s' u' : St) (ht : u.time = s.time)
    (h : stepOnce c s = .ok s') (h' : stepOnce c' u = .ok u') :
    ∃ d t, s'.time = t ∧ u'.time = t ∧ s'.finished = u'.finished ∧ s'.times = s.times ++ [t] ∧
      u'.times = u.times ++ [t] ∧ s'.dts = s.dts ++ [d] ∧ u'.dts = u.dts ++ [d] := by
  have key : ∀ (s s' : St) last d t, afterStep s last d t = .ok s' →
      s'.time = t ∧ s'.finished = last ∧ s'.times = s.times ++ [t] ∧ s'.dts = s.dts ++ [d] := by
    intro s s' last d t h
    unfold afterStep at h
    split at h
    · exact absurd h (by simp)
    · split at h
      · exact absurd h (by simp)
      · obtain rfl := Except.ok.inj h
        exact ⟨rfl, rfl, rfl, rfl⟩
  unfold stepOnce at h h'
  rw [ht, hd, he] at h'
  generalize lift (addTime s.time c.dt) = A at h h'
  cases A with
  | error e => exact absurd h (by simp)
  | ok tn =>
    simp only at h h'
    generalize lift (geOp tn c.tend) = B at h h'
    cases B with
    | error e => exact absurd h (by simp)
    | ok b =>
      cases b with
      | true =>
        simp only at h h'
        generalize lift (TimeObj.sub c.tend s.time) = D at h h'
        cases D with
        | error e => exact absurd h (by simp)
        | ok d =>
          simp only at h h'
          obtain ⟨a1, a2, a3, a4⟩ := key _ _ _ _ _ h
          obtain ⟨b1, b2, b3, b4⟩ := key _ _ _ _ _ h'
          exact ⟨d, c.tend, a1, b1, by rw [a2, b2], a3, b3, a4, b4⟩
      | false =>
        simp only at h h'
        generalize lift (TimeObj.sub tn s.time) = D at h h'
        cases D with
        | error e => exact absurd h (by simp)
        | ok d =>
          simp only at h h'
          obtain ⟨a1, a2, a3, a4⟩ := key _ _ _ _ _ h
          obtain ⟨b1, b2, b3, b4⟩ := key _ _ _ _ _ h'
          exact ⟨d, tn, a1, b1, by rw [a2, b2], a3, b3, a4, b4⟩

theorem runN_sync (c c' : Cfg) (hd : c'.dt = c.dt) (he : c'.tend = c.tend) (n : Nat) (s u s' u' : St)
    (ht : u.time = s.time) (hf : u.finished = s.finished) (h : runN c n s = .ok s') (h' : runN c' n u = .ok u') :
    ∃ ds ts, s'.time = u'.time ∧ s'.finished = u'.finished ∧ s'.times = s.times ++ ts ∧
      u'.times = u.times ++ ts ∧ s'.dts = s.dts ++ ds ∧ u'.dts = u.dts ++ ds := by
  induction n generalizing s u with
  | zero =>
    obtain rfl : s = s' := Except.ok.inj h
    obtain rfl : u = u' := Except.ok.inj h'
    exact ⟨[], [], ht.symm, hf.symm, by simp, by simp, by simp, by simp⟩
  | succ n ih =>
    unfold runN at h h'
    rw [hf] at h'
    by_cases hfin : s.finished = true
    · rw [if_pos hfin] at h h'
      obtain rfl : s = s' := Except.ok.inj h
      obtain rfl : u = u' := Except.ok.inj h'
      exact ⟨[], [], ht.symm, hf.symm, by simp, by simp, by simp, by simp⟩
    · rw [if_neg hfin] at h h'
      cases e1 : stepOnce c s with
      | error x => rw [e1] at h; exact absurd h (by simp)
      | ok s1 =>
        cases e2 : stepOnce c' u with
        | error x => rw [e2] at h'; exact absurd h' (by simp)
        | ok u1 =>
          rw [e1] at h; rw [e2] at h'
          simp only at h h'
          obtain ⟨d, t, a1, a2, a3, a4, a5, a6, a7⟩ := stepOnce_sync c c' hd he s u s1 u1 ht e1 e2
          obtain ⟨ds, ts, b1, b2, b3, b4, b5, b6⟩ := ih s1 u1 (by rw [a1, a2]) a3.symm h h'
          exact ⟨d :: ds, t :: ts, b1, b2, by rw [b3, a4]; simp, by rw [b4, a5]; simp, by rw [b5, a6]; simp,
            by rw [b6, a7]; simp⟩

theorem day_of_year (t : Time) (h : ValidFor (fun _ => false) t) :
    0 ≤ daysBefore t.month + t.day ∧ daysBefore t.month + t.day < 365 := by
  obtain ⟨h1, h2, h3, h4, _⟩ := h
  generalize t.month = m at *
  have hm : m = 0 ∨ m = 1 ∨ m = 2 ∨ m = 3 ∨ m = 4 ∨ m = 5 ∨ m = 6 ∨ m = 7 ∨ m = 8 ∨ m = 9 ∨ m = 10 ∨ m = 11 := by omega
  rcases hm with rfl | rfl | rfl | rfl | rfl | rfl | rfl | rfl | rfl | rfl | rfl | rfl <;>
    simp [daysBefore, monthLength] at h4 ⊢ <;> omega

/-- C96: a run resumed at any moment of an unfinished run, with the same step and end and with any output managers and
workflow processes, makes exactly the steps the first run still had to make: the same times and the same lengths, to
the same end. -/
theorem C96_resumed_steps (c : Cfg) (hc : CfgOk c) (oms0 oms1 : List OutMan) (wfs0 wfs1 : List Workflow)
    (ho : ∀ om ∈ oms0, FreshOut om) (hw : ∀ w ∈ wfs0, FreshWf w) (ho1 : ∀ om ∈ oms1, FreshOut om)
    (hw1 : ∀ w ∈ wfs1, FreshWf w) (s : St) (hr : Reach c oms0 wfs0 s) (hs : s.finished = false) (n : Nat) :
    ∃ u0 s' u', goInit { c with tstart := s.time } oms1 wfs1 = .ok (some u0) ∧
      runN c n s = .ok s' ∧ runN { c with tstart := s.time } n u0 = .ok u' ∧
      u'.time = s'.time ∧ u'.finished = s'.finished ∧ s'.times = s.times ++ u'.times ∧ s'.dts = s.dts ++ u'.dts := by
  have hi := reach_inv c hc oms0 wfs0 ho hw s hr
  have hc' : CfgOk { c with tstart := s.time } := by
    refine ⟨hi.fv, hc.stop, hc.dt, hc.pos, ?_, hi.nfin hs⟩
    have h1 := hi.ge
    have h2 := hi.fv.1.2
    have h3 := hc.start.1.2
    have h4 := hc.year
    simp only
    have r1 := day_of_year s.time h2
    have r2 := day_of_year c.tstart h3
    have r3 := h2.2.2.2.2
    have r4 := h3.2.2.2.2
    unfold elapsedUs elapsedDays at h1
    have q1 : s.time.month / 12 = 0 := by have := h2.1; have := h2.2.1; omega
    have q2 : c.tstart.month / 12 = 0 := by have := h3.1; have := h3.2.1; omega
    have q3 : s.time.month % 12 = s.time.month := by have := h2.1; have := h2.2.1; omega
    have q4 : c.tstart.month % 12 = c.tstart.month := by have := h3.1; have := h3.2.1; omega
    rw [q1, q2, q3, q4] at h1
    omega
  obtain ⟨u0, e0, i0, f0, d0⟩ := init_inv { c with tstart := s.time } hc' oms1 wfs1 ho1 hw1
  obtain ⟨s', es, _⟩ := runN_inv c hc oms0 wfs0 n s hi
  obtain ⟨u', eu, _⟩ := runN_inv _ hc' oms1 wfs1 n u0 i0
  have ht : u0.time = s.time := by
    have h1 := i0.sum
    rw [d0] at h1
    simp only [List.sum_nil] at h1
    have h2 : ((elapsedUs u0.time - elapsedUs s.time : Int) : ℚ) = 0 := by
      rcases div_eq_zero_iff.mp h1.symm with h | h
      · exact h
      · norm_num at h
    have h3 : elapsedUs u0.time - elapsedUs s.time = 0 := by exact_mod_cast h2
    exact fv_ext _ _ i0.fv hi.fv (by omega)
  have htimes : u0.times = [] := by
    have := i0.len
    rw [d0] at this
    exact List.eq_nil_of_length_eq_zero this
  obtain ⟨ds, ts, b1, b2, b3, b4, b5, b6⟩ := runN_sync c { c with tstart := s.time } rfl rfl n s u0 s' u' ht (by rw [f0, hs]) es eu
  refine ⟨u0, s', u', e0, es, eu, b1.symm, b2.symm, ?_, ?_⟩
  · rw [b3, b4, htimes]; rfl
  · rw [b5, b6, d0]; rfl

/-- A run of seven-minute steps, interrupted. -/
example : ∃ s u0 s' u', Reach exCfg [exOut] [exWf] s ∧
    goInit { exCfg with tstart := s.time } [exOut] [] = .ok (some u0) ∧ runN exCfg 3 s = .ok s' ∧
    runN { exCfg with tstart := s.time } 3 u0 = .ok u' ∧ u'.time = s'.time ∧ s'.dts = s.dts ++ u'.dts := by
  obtain ⟨s0, h1, h2, _⟩ := C08_run_ends_at_end exCfg exCfg_ok [exOut] [exWf]
    (by simpa using exOut_fresh) (by simpa using exWf_fresh)
  have hr : Reach exCfg [exOut] [exWf] s0 := ⟨s0, 0, h1, rfl⟩
  have hf : s0.finished = false := by
    obtain ⟨s1, e1, _, f1, _⟩ := init_inv exCfg exCfg_ok [exOut] [exWf] (by simpa using exOut_fresh)
      (by simpa using exWf_fresh)
    rw [h1] at e1
    obtain rfl : s0 = s1 := by simpa using e1
    exact f1
  obtain ⟨u0, s', u', a1, a2, a3, a4, _, _, a5⟩ := C96_resumed_steps exCfg exCfg_ok [exOut] [exOut] [exWf] []
    (by simpa using exOut_fresh) (by simpa using exWf_fresh) (by simpa using exOut_fresh) (by simp) s0 hr hf 3
  exact ⟨s0, u0, s', u', hr, a1, a2, a3, a4, a5⟩

/-- C96 (false part): the output manager of a resumed run, set up as a new one, writes the state it was resumed from
once more, into a file opened at that time (for the manager of restart files, the file it was resumed from, since the
name of a file is made of the time). -/
theorem C96_written_again_false (om om' : OutMan) (t : Time) (h : FreshOut om) (hf : om.fromRestart = false)
    (hi : initialOutput om t = .ok om') : writeTimes om' = [t] ∧ om'.opened = [t] := by
  have ep : performOutput om t = .ok (closeIfFull (writeRecord om t)) := by
    unfold performOutput
    rw [if_neg (by rw [h.canOpen]; simp)]
  unfold initialOutput at hi
  rw [hf] at hi
  simp only [Bool.false_eq_true, if_false, ep] at hi
  have e : (closeIfFull (writeRecord om t)).log = [⟨om.ixFile, om.ixTime, t⟩] ∧
      (closeIfFull (writeRecord om t)).opened = [t] := by
    unfold closeIfFull
    split_ifs <;> simp [writeRecord, h.log, h.opened, h.isOpen]
  split at hi
  · exact absurd hi (by simp)
  · obtain rfl := Except.ok.inj hi
    unfold writeTimes
    simp only [e.1, e.2, List.map_cons, List.map_nil, and_self]

/-! ### States -/

open Verif.Steps in
/-- One step of the scheme after another, each with its own length and its own dynamics (they may depend on time). -/
def steps {K V W : Type} [Field K] [DecidableEq K] (oV : Ops K V) (oW : Ops K W) (s : Scheme K) :
    List (Dyn K V W × K) → Data V W → Option (Data V W)
  | [], d => some d
  | (D, dt) :: rest, d => (run oV oW D (s.prog dt) d).bind (steps oV oW s rest)

open Verif.Steps in
/-- C96 for the schemes whose steps copy state and tracers (of Strang, only the first step is one of these): a run resumed with the state that was
saved, the other slots holding anything, reaches after any number of steps exactly the state the first run reaches,
in any (also rounded) arithmetic and for any dynamics.  (Missing: Strang, for which it is false, and the schemes that
read left-over tracers, C43.) -/
theorem C96_resumed_state_partial {K V W : Type} [Field K] [DecidableEq K] (oV : Ops K V) (oW : Ops K W) (s : Scheme K)
    (hs : s.CopiesTracers) (todo : List (Dyn K V W × K)) (d d' : Data V W)
    (u : V × W) (h : Current s.slots d u) (h' : Current s.slots d' u) :
    ∃ e e' v, steps oV oW s todo d = some e ∧ steps oV oW s todo d' = some e' ∧ e.get 0 = some v ∧ e'.get 0 = some v := by
  induction todo generalizing d d' u with
  | nil => exact ⟨d, d', u, rfl, rfl, h.2.2, h'.2.2⟩
  | cons p rest ih =>
    obtain ⟨D, dt⟩ := p
    obtain ⟨e, e', v, r1, r2, g1, g2⟩ := C43_scratch_partial oV oW D s hs dt d d' u h h'
    obtain ⟨x, rx, sx⟩ := run_ok oV oW D (ok_all s dt) (d := d) ⟨h.1, h.2.1⟩
    obtain ⟨y, ry, sy⟩ := run_ok oV oW D (ok_all s dt) (d := d') ⟨h'.1, h'.2.1⟩
    rw [r1] at rx; rw [r2] at ry
    obtain rfl := Option.some.inj rx
    obtain rfl := Option.some.inj ry
    obtain ⟨f, f', z, q1, q2, q3, q4⟩ := ih e e' v ⟨sx.1, sx.2, g1⟩ ⟨sy.1, sy.2, g2⟩
    exact ⟨f, f', z, by rw [steps, r1]; exact q1, by rw [steps, r2]; exact q2, q3, q4⟩

open Verif.Steps in
example : (Scheme.erk (K := ℚ) .rungeKutta4).CopiesTracers ∧
    Current (Scheme.erk (K := ℚ) .rungeKutta4).slots (⟨[1, 2, 3, 4, 5], [6, 7, 8, 9, 10]⟩ : Data ℚ ℚ) (1, 6) ∧
    Current (Scheme.erk (K := ℚ) .rungeKutta4).slots (⟨[1, 0, 0, 0, 0], [6, 0, 0, 0, 0]⟩ : Data ℚ ℚ) (1, 6) :=
  ⟨trivial, ⟨rfl, rfl, rfl⟩, ⟨rfl, rfl, rfl⟩⟩

open Verif.Steps in
/-- C96 is false for Strang splitting: after a first step of length one the state is one; the run goes on to 7/4 with
a last step of one half, but a run resumed from that state goes to 3/2, because the increment left by the last step is
not saved. -/
theorem C96_strang_false {d d' : Data ℝ ℝ} (hd : Current 5 d (0, 0)) (hd' : Current 5 d' (1, 0)) :
    StepsTo (steady 0 0 (1, 0)) (strangStep 0 Erk.rungeKutta4.block true false 1) d (1, 0) ∧
    StepsTo (steady 0 0 (1, 0)) (strangStep 0 Erk.rungeKutta4.block true false 1 ++
      strangStep 0 Erk.rungeKutta4.block false true (1 / 2)) d (7 / 4, 0) ∧
    StepsTo (steady 0 0 (1, 0)) (strangStep 0 Erk.rungeKutta4.block true true (1 / 2)) d' (3 / 2, 0) := by
  refine ⟨?_, C46_false_short_last hd, ?_⟩
  · obtain ⟨e, he, hsl, hr⟩ := clk_step (n := 4) (steady_constant 0 0 (1, 0))
      (ok_all (.strang .rungeKutta4 0 true false) (1 : ℝ)) hd
    refine ⟨e, he, ?_⟩
    have h1 := hr.1.2 0 _ (strang_first .rungeKutta4 (by simp) 0 1 false false ⟨1, 0, 0, 0⟩)
    have h2 := hr.2.2 0 _ (strang_first .rungeKutta4 (by simp) 0 1 false true ⟨1, 0, 0, 0⟩)
    unfold Data.get
    rw [h1, h2]
    simp [Clk.val, kappa]
    norm_num
  · obtain ⟨e, he, h⟩ := C46_total (steady_constant 0 0 (1, 0)) .rungeKutta4 (by simp) 0 (1 / 2 : ℝ) [] hd'
    exact ⟨e, he, by rw [h]; norm_num⟩

/-! ### Settings -/

/-- C96 (false part): of the settings of the grid, the vertical stretching and the vertical slice are not restored; and
the constants the test case sets (radius, rotation, gravity …) are those of a newly constructed model, unless the
resumed run is perturbed. -/
theorem C96_settings_false {S P : Type} (stretch : S) (eval : P → P) (phys : P) (hne : eval phys ≠ phys) :
    (setupGrid true (some stretch) true).stretch ≠ (setupGrid false (some stretch) true).stretch ∧
    (setupGrid true (some stretch) true).slice ≠ (setupGrid false (some stretch) true).slice ∧
    setTestCase eval true false phys ≠ setTestCase eval false false phys ∧
    setTestCase eval true true phys = setTestCase eval false false phys := by
  refine ⟨by simp [setupGrid], by simp [setupGrid], ?_, by simp [setTestCase]⟩
  simp only [setTestCase, if_true, Bool.false_eq_true, if_false, false_and]
  exact hne.symm

example : setTestCase (fun r : Nat => r / 125) true false 6371220 ≠ setTestCase (fun r : Nat => r / 125) false false 6371220 :=
  (C96_settings_false () (fun r : Nat => r / 125) 6371220 (by decide)).2.2.1

end Verif.Restart
