/-
Properties C08-C12 and C64: runs, output and workflow schedules.
-/
import Verif.Run.Lemmas
import Verif.Time.StringProps
import Mathlib.Data.List.Nodup

namespace Verif.Run

open Verif.TimeObj

/-- A concrete run: 100 minutes in steps of 7 minutes from 30 December 1999. -/
def exCfg : Cfg := ⟨⟨0, 0, 0, 420, 0, .noLeap, .delta⟩, ⟨1999, 11, 29, 0, 0, .noLeap, .fixed⟩,
  ⟨1999, 11, 29, 6000, 0, .noLeap, .fixed⟩⟩
/-- A concrete output manager: every half hour, two records per file. -/
def exOut : OutMan := { freq := ⟨0, 0, 0, 1800, 0, .noLeap, .delta⟩, nPerFile := 2, fromRestart := false, canOpen := fun _ => true }
/-- A concrete workflow process: every 10 minutes. -/
def exWf : Workflow := { freq := ⟨0, 0, 0, 600, 0, .noLeap, .delta⟩ }

theorem exCfg_ok : CfgOk exCfg := by constructor <;> decide
theorem exOut_fresh : FreshOut exOut := by constructor <;> first | decide | (intro _; rfl) | rfl
theorem exWf_fresh : FreshWf exWf := by constructor <;> first | decide | rfl

theorem reach_inv (c : Cfg) (hc : CfgOk c) (oms0 : List OutMan) (wfs0 : List Workflow)
    (ho : ∀ om ∈ oms0, FreshOut om) (hw : ∀ w ∈ wfs0, FreshWf w) (s : St) (hr : Reach c oms0 wfs0 s) :
    RunInv c oms0 wfs0 s := by
  obtain ⟨s0, n, h1, h2⟩ := hr
  obtain ⟨s0', e1, e2, _, _⟩ := init_inv c hc oms0 wfs0 ho hw
  rw [e1] at h1
  simp only [Except.ok.injEq, Option.some.injEq] at h1
  subst h1
  obtain ⟨s', f1, f2⟩ := runN_inv c hc oms0 wfs0 n s0' e2
  rw [f1] at h2
  simp only [Except.ok.injEq] at h2
  subst h2
  exact f2

theorem forall₂_get {α β : Type} {P : α → β → Prop} {l : List α} {l' : List β} (h : List.Forall₂ P l l')
    (i : Nat) (a : α) (b : β) (ha : l[i]? = some a) (hb : l'[i]? = some b) : P a b := by
  induction h generalizing i with
  | nil => simp at ha
  | cons h1 _ ih =>
    cases i with
    | zero => simp at ha hb; subst ha hb; exact h1
    | succ i => simp at ha hb; exact ih i ha hb

/-! ### C08 -/

/-- C08: with start before end and a positive step (any mixture of years, months, days, seconds and
microseconds), the run never throws and finishes after finitely many steps exactly at the end time; the
step lengths handed to the integrator add up to `end - start` as reported by the time subtraction. -/
theorem C08_run_ends_at_end (c : Cfg) (hc : CfgOk c) (oms0 : List OutMan) (wfs0 : List Workflow)
    (ho : ∀ om ∈ oms0, FreshOut om) (hw : ∀ w ∈ wfs0, FreshWf w) :
    ∃ s0, goInit c oms0 wfs0 = .ok (some s0) ∧ (∀ n, ∃ s, runN c n s0 = .ok s) ∧
      ∃ n s, runN c n s0 = .ok s ∧ s.finished = true ∧ s.time = c.tend ∧
        TimeObj.sub c.tend c.tstart = .ok s.dts.sum := by
  obtain ⟨s0, e1, e2, _, _⟩ := init_inv c hc oms0 wfs0 ho hw
  refine ⟨s0, e1, ?_, ?_⟩
  · intro n
    obtain ⟨s, f1, _⟩ := runN_inv c hc oms0 wfs0 n s0 e2
    exact ⟨s, f1⟩
  · obtain ⟨s, f1, f2, f3⟩ := runN_finishes c hc oms0 wfs0 (elapsedUs c.tend - elapsedUs s0.time).toNat s0 e2
      (by omega)
    refine ⟨_, s, f1, f3, f2.fin f3, ?_⟩
    rw [sub_eq _ _ hc.stop.1 hc.start.1, f2.sum, f2.fin f3]

example : CfgOk exCfg ∧ FreshOut exOut ∧ FreshWf exWf := ⟨exCfg_ok, exOut_fresh, exWf_fresh⟩

/-- C08: at every moment of the run, model time lies between start and end, has increased strictly at every
step, the step lengths are positive, and if the nominal step is a number of days, seconds and microseconds
each step length is at most the nominal one, with equality before the last step. -/
theorem C08_every_step (c : Cfg) (hc : CfgOk c) (oms0 : List OutMan) (wfs0 : List Workflow)
    (ho : ∀ om ∈ oms0, FreshOut om) (hw : ∀ w ∈ wfs0, FreshWf w) (s : St) (hr : Reach c oms0 wfs0 s) :
    elapsedUs c.tstart ≤ elapsedUs s.time ∧ elapsedUs s.time ≤ elapsedUs c.tend ∧
    (s.time = c.tend ↔ s.finished = true) ∧
    (c.tstart :: s.times).Pairwise (fun a b => ltOp a b = .ok true) ∧
    (c.tstart :: s.times).getLast? = some s.time ∧
    s.dts.length = s.times.length ∧ (∀ d ∈ s.dts, 0 < d) ∧
    (c.dt.year = 0 → c.dt.month = 0 → (∀ d ∈ s.dts, d ≤ (durUs c.dt : ℚ) / 1000000) ∧
      (s.finished = false → ∀ d ∈ s.dts, d = (durUs c.dt : ℚ) / 1000000)) := by
  have h := reach_inv c hc oms0 wfs0 ho hw s hr
  have hend : elapsedUs s.time ≤ elapsedUs c.tend := by
    by_cases hf : s.finished = true
    · rw [h.fin hf]
    · have := h.nfin (by simpa using hf); omega
  have hd : (durUs c.dt : ℚ) / 1000000 = (c.dt.day : ℚ) * 86400 + c.dt.second + (c.dt.usec : ℚ) / 1000000 := by
    unfold durUs; push_cast; ring
  refine ⟨h.ge, hend, ⟨?_, h.fin⟩, ?_, h.tlast, h.len.symm, h.pos, ?_⟩
  · intro he
    by_contra hf
    have := h.nfin (by simpa using hf)
    rw [he] at this; omega
  · have hfv : ∀ t ∈ c.tstart :: s.times, FV t := by
      intro t ht
      rcases List.mem_cons.mp ht with ht | ht
      · rw [ht]; exact hc.start
      · exact h.tfv t ht
    refine List.Pairwise.imp_of_mem ?_ h.tsorted
    intro a b ha hb hab
    rw [lt_ok a b (hfv a ha) (hfv b hb)]; simp [hab]
  · intro hy hm
    rw [hd]
    exact ⟨fun d hd => h.bound d hd hy hm, fun hf d hd => h.nominal hf d hd hy hm⟩

/-- A state in the middle of the example run is reached. -/
example : ∃ s, Reach exCfg [exOut] [exWf] s := by
  obtain ⟨s0, h1, h2, _⟩ := C08_run_ends_at_end exCfg exCfg_ok [exOut] [exWf]
    (by simpa using exOut_fresh) (by simpa using exWf_fresh)
  obtain ⟨s, hs⟩ := h2 5
  exact ⟨s, s0, 5, h1, hs⟩

/-- C08: a zero step is refused, and a run whose start is not before its end does nothing at all. -/
theorem C08_degenerate_runs (c : Cfg) (oms0 : List OutMan) (wfs0 : List Workflow) :
    (isZero c.dt = true → goInit c oms0 wfs0 = .error .zeroDeltaT) ∧
    (isZero c.dt = false → FV c.tstart → FV c.tend → elapsedUs c.tend ≤ elapsedUs c.tstart →
      goInit c oms0 wfs0 = .ok none) := by
  constructor
  · intro h; unfold goInit; rw [h]; rfl
  · intro h h1 h2 h3
    unfold goInit
    rw [h, ge_ok _ _ h1 h2]
    simp [lift, h3]

/-- C08 limitation: in the standard calendar no run ever completes a step; the time subtraction throws. -/
theorem C08_standard_calendar_throws (c : Cfg) (s : St) (h : s.time.cal = .standard)
    (he : c.tend.cal = .standard) : ∃ e, stepOnce c s = .error e := by
  unfold stepOnce
  cases ha : addTime s.time c.dt with
  | error e => exact ⟨_, rfl⟩
  | ok X =>
    simp only [lift]
    have hX : X.cal = .standard := by
      unfold addTime at ha
      split_ifs at ha
      rw [(normalize_cal _ _ ha).1]; exact h
    cases hg : geOp X c.tend with
    | error e => exact ⟨_, rfl⟩
    | ok b =>
      cases b
      · simp only
        rw [(C04_standard_throws X s.time (by rw [hX]; decide)).1]; exact ⟨_, rfl⟩
      · simp only
        rw [(C04_standard_throws c.tend s.time (by rw [he]; decide)).1]; exact ⟨_, rfl⟩

example : ∃ c : Cfg, c.tend.cal = .standard ∧ c.tstart.cal = .standard :=
  ⟨⟨exCfg.dt, ⟨2000, 0, 0, 0, 0, .standard, .fixed⟩, ⟨2000, 0, 1, 0, 0, .standard, .fixed⟩⟩, rfl, rfl⟩

/-! ### C09 -/

/-- C09: at every moment of the run the times written by each output manager are strictly increasing (so no
time is written twice) and start with the start time unless restarting. -/
theorem C09_writes_increasing (c : Cfg) (hc : CfgOk c) (oms0 : List OutMan) (wfs0 : List Workflow)
    (ho : ∀ om ∈ oms0, FreshOut om) (hw : ∀ w ∈ wfs0, FreshWf w) (s : St) (hr : Reach c oms0 wfs0 s)
    (i : Nat) (om0 om : OutMan) (h0 : oms0[i]? = some om0) (h1 : s.oms[i]? = some om) :
    (writeTimes om).Pairwise (fun a b => elapsedUs a < elapsedUs b) ∧ (writeTimes om).Nodup ∧
    (om0.fromRestart = false → (writeTimes om).head? = some c.tstart) ∧
    (∀ t ∈ writeTimes om, elapsedUs t ≤ elapsedUs s.time) := by
  have h := (forall₂_get (reach_inv c hc oms0 wfs0 ho hw s hr).oms i om0 om h0 h1).2
  have hp : (writeTimes om).Pairwise (fun a b => elapsedUs a < elapsedUs b) := by
    unfold writeTimes; rw [List.pairwise_map]; exact h.sorted
  refine ⟨hp, ?_, ?_, ?_⟩
  · refine List.Pairwise.imp ?_ hp
    intro a b hab hcon; subst hcon; omega
  · intro hf
    obtain ⟨r, r1, r2⟩ := h.head hf
    unfold writeTimes; rw [List.head?_map, r1]; simp [r2]
  · intro t ht
    unfold writeTimes at ht
    obtain ⟨r, hr1, hr2⟩ := List.mem_map.mp ht
    rw [← hr2]; exact (h.fv r hr1).2

/-- C09: when the run has finished, the last write of each output manager is at the end time, and it is the
only write at that time. -/
theorem C09_final_state_written_once (c : Cfg) (hc : CfgOk c) (oms0 : List OutMan) (wfs0 : List Workflow)
    (ho : ∀ om ∈ oms0, FreshOut om) (hw : ∀ w ∈ wfs0, FreshWf w) (s : St) (hr : Reach c oms0 wfs0 s)
    (hf : s.finished = true) (i : Nat) (om0 om : OutMan) (h0 : oms0[i]? = some om0)
    (h1 : s.oms[i]? = some om) :
    (writeTimes om).getLast? = some c.tend ∧ (writeTimes om).count c.tend = 1 := by
  have h := (forall₂_get (reach_inv c hc oms0 wfs0 ho hw s hr).oms i om0 om h0 h1).2
  obtain ⟨r, r1, r2⟩ := h.fin_ hf
  have hl : (writeTimes om).getLast? = some c.tend := by
    unfold writeTimes; rw [List.getLast?_map, r1]; simp [r2]
  refine ⟨hl, ?_⟩
  apply List.count_eq_one_of_mem
  · exact (C09_writes_increasing c hc oms0 wfs0 ho hw s hr i om0 om h0 h1).2.1
  · exact List.mem_of_getLast? hl

/-- The hypotheses of C09 are met by the example run, which reaches its end. -/
example : ∃ s om, Reach exCfg [exOut] [exWf] s ∧ s.finished = true ∧ s.oms[0]? = some om := by
  obtain ⟨s0, h1, h2, n, s, h3, h4, _⟩ := C08_run_ends_at_end exCfg exCfg_ok [exOut] [exWf]
    (by simpa using exOut_fresh) (by simpa using exWf_fresh)
  have hr : Reach exCfg [exOut] [exWf] s := ⟨s0, n, h1, h3⟩
  have := (reach_inv exCfg exCfg_ok [exOut] [exWf] (by simpa using exOut_fresh) (by simpa using exWf_fresh) s hr).oms
  cases hs : s.oms with
  | nil => rw [hs] at this; cases this
  | cons om l => exact ⟨s, om, hr, h4, by rw [hs]; rfl⟩

/-! ### C10 -/

/-- C10: if no step is longer than the output frequency, then after every step (before the last) exactly the
outputs that have come due on the schedule `start + k * frequency` have been written, no more, no fewer. -/
theorem C10_no_output_overdue (c : Cfg) (hc : CfgOk c) (oms0 : List OutMan) (wfs0 : List Workflow)
    (ho : ∀ om ∈ oms0, FreshOut om) (hw : ∀ w ∈ wfs0, FreshWf w) (s : St) (hr : Reach c oms0 wfs0 s)
    (hnf : s.finished = false) (i : Nat) (om0 om : OutMan) (h0 : oms0[i]? = some om0)
    (h1 : s.oms[i]? = some om) (hfreq : isZero om0.freq = false) (hstep : StepNotLonger c.dt om0.freq)
    (due : ℕ → Time) (hdue : IsSched c.tstart om0.freq due) :
    ∃ m, om.log.length = nInit om0 + m ∧ elapsedUs (due m) ≤ elapsedUs s.time ∧
      elapsedUs s.time < elapsedUs (due (m + 1)) := by
  have hI := reach_inv c hc oms0 wfs0 ho hw s hr
  have h := (forall₂_get hI.oms i om0 om h0 h1).2
  rw [hnf] at h
  obtain ⟨m, m1, m2, m3⟩ := h.sched rfl due hdue
  refine ⟨m, by omega, ?_, ?_⟩
  · cases m with
    | zero => rw [hdue.1]; exact hI.ge
    | succ m =>
      have hlt : m + nInit om0 < om.log.length := by omega
      have hg : om.log[m + nInit om0]? = some om.log[m + nInit om0] := List.getElem?_eq_getElem hlt
      have := m3 m _ hg
      have := (h.fv _ (List.getElem_mem hlt)).2
      omega
  · rw [← m2]; exact h.cad rfl hfreq hstep

/-- C10 for steps and frequencies in days, seconds and microseconds: the number of outputs written is the
number of whole periods elapsed (plus the initial one). -/
theorem C10_output_count (c : Cfg) (hc : CfgOk c) (oms0 : List OutMan) (wfs0 : List Workflow)
    (ho : ∀ om ∈ oms0, FreshOut om) (hw : ∀ w ∈ wfs0, FreshWf w) (s : St) (hr : Reach c oms0 wfs0 s)
    (hnf : s.finished = false) (i : Nat) (om0 om : OutMan) (h0 : oms0[i]? = some om0)
    (h1 : s.oms[i]? = some om) (hy : c.dt.year = 0 ∧ c.dt.month = 0)
    (hfy : om0.freq.year = 0 ∧ om0.freq.month = 0) (hpos : 0 < durUs om0.freq)
    (hle : durUs c.dt ≤ durUs om0.freq) :
    (om.log.length : Int) = nInit om0 + (elapsedUs s.time - elapsedUs c.tstart) / durUs om0.freq := by
  have hfr := (ho om0 (List.mem_of_getElem? h0)).freq
  have hstep : StepNotLonger c.dt om0.freq := by
    intro t u t' u' ht hu h2 h3
    rw [C02_add_exact t c.dt t' ht.1.1 hy.1 hy.2 h2, C02_add_exact u om0.freq u' hu.1.1 hfy.1 hfy.2 h3]
    unfold durUs at hle; omega
  have hz : isZero om0.freq = false := by
    unfold isZero
    rw [if_neg]
    rintro ⟨_, _, a, b, d⟩
    unfold durUs at hpos; rw [a, b, d] at hpos; simp at hpos
  -- build the schedule
  have hex : ∃ due : ℕ → {t : Time // FV t}, (due 0).1 = c.tstart ∧
      ∀ k, addTime (due k).1 om0.freq = .ok (due (k + 1)).1 := by
    choose f hf1 hf2 using fun (t : {t : Time // FV t}) => add_ok t.1 om0.freq t.2 hfr
    refine ⟨fun k => Nat.rec ⟨c.tstart, hc.start⟩ (fun _ t => ⟨f t, (hf2 t).1⟩) k, rfl, ?_⟩
    intro k; exact hf1 _
  obtain ⟨due, d0, d1⟩ := hex
  have hval : ∀ k : ℕ, elapsedUs (due k).1 = elapsedUs c.tstart + k * durUs om0.freq := by
    intro k
    induction k with
    | zero => rw [d0]; simp
    | succ k ih =>
      rw [C02_add_exact (due k).1 om0.freq _ (due k).2.1.1 hfy.1 hfy.2 (d1 k), ih]
      unfold durUs; push_cast; ring
  obtain ⟨m, m1, m2, m3⟩ := C10_no_output_overdue c hc oms0 wfs0 ho hw s hr hnf i om0 om h0 h1 hz hstep
    (fun k => (due k).1) ⟨d0, d1⟩
  rw [m1]
  simp only [hval] at m2 m3
  have : (elapsedUs s.time - elapsedUs c.tstart) / durUs om0.freq = m := by
    rw [Int.ediv_eq_iff_of_pos hpos]
    push_cast at m3
    constructor
    · linarith
    · linarith
  rw [this]; push_cast; ring

example : exCfg.dt.year = 0 ∧ exCfg.dt.month = 0 ∧ 0 < durUs exOut.freq ∧ durUs exCfg.dt ≤ durUs exOut.freq := by
  decide

/-- C10: with a zero frequency only the initial and final outputs are written. -/
theorem C10_zero_frequency (c : Cfg) (hc : CfgOk c) (oms0 : List OutMan) (wfs0 : List Workflow)
    (ho : ∀ om ∈ oms0, FreshOut om) (hw : ∀ w ∈ wfs0, FreshWf w) (s : St) (hr : Reach c oms0 wfs0 s)
    (hnf : s.finished = false) (i : Nat) (om0 om : OutMan) (h0 : oms0[i]? = some om0)
    (h1 : s.oms[i]? = some om) (hz : isZero om0.freq = true) : om.log.length = nInit om0 := by
  have h := (forall₂_get (reach_inv c hc oms0 wfs0 ho hw s hr).oms i om0 om h0 h1).2
  rw [hnf] at h
  exact h.zero rfl hz

/-- C10: no scheduled output is ever written early, whatever the step. -/
theorem C10_never_early (c : Cfg) (hc : CfgOk c) (oms0 : List OutMan) (wfs0 : List Workflow)
    (ho : ∀ om ∈ oms0, FreshOut om) (hw : ∀ w ∈ wfs0, FreshWf w) (s : St) (hr : Reach c oms0 wfs0 s)
    (hnf : s.finished = false) (i : Nat) (om0 om : OutMan) (h0 : oms0[i]? = some om0)
    (h1 : s.oms[i]? = some om) (due : ℕ → Time) (hdue : IsSched c.tstart om0.freq due) (k : Nat) (t : Time)
    (hk : (writeTimes om)[nInit om0 + k]? = some t) : elapsedUs (due (k + 1)) ≤ elapsedUs t := by
  have h := (forall₂_get (reach_inv c hc oms0 wfs0 ho hw s hr).oms i om0 om h0 h1).2
  rw [hnf] at h
  obtain ⟨m, m1, m2, m3⟩ := h.sched rfl due hdue
  unfold writeTimes at hk
  rw [List.getElem?_map] at hk
  cases hg : om.log[nInit om0 + k]? with
  | none => rw [hg] at hk; cases hk
  | some r =>
    rw [hg] at hk
    simp only [Option.map_some, Option.some.injEq] at hk
    rw [← hk]
    exact m3 k r (by rw [Nat.add_comm]; exact hg)

/-! ### C11 -/

/-- C11: a workflow process is performed only when due: its next due time is always exactly
`start + (number of performances + 1) * frequency`, the k-th performance happened at or after its due time,
performance times are strictly increasing, and a zero frequency means never. -/
theorem C11_workflow_only_when_due (c : Cfg) (hc : CfgOk c) (oms0 : List OutMan) (wfs0 : List Workflow)
    (ho : ∀ om ∈ oms0, FreshOut om) (hw : ∀ w ∈ wfs0, FreshWf w) (s : St) (hr : Reach c oms0 wfs0 s)
    (i : Nat) (w0 w : Workflow) (h0 : wfs0[i]? = some w0) (h1 : s.wfs[i]? = some w) :
    (∀ due, IsSched c.tstart w0.freq due → w.next = due (w.done.length + 1) ∧
      ∀ (k : Nat) t, w.done[k]? = some t → elapsedUs (due (k + 1)) ≤ elapsedUs t) ∧
    w.done.Pairwise (fun a b => elapsedUs a < elapsedUs b) ∧
    (isZero w0.freq = true → w.done = []) := by
  have h := (forall₂_get (reach_inv c hc oms0 wfs0 ho hw s hr).wfs i w0 w h0 h1).2
  exact ⟨h.sched, h.sorted, h.zero⟩

/-- C11: with a step no longer than the frequency, after every step (also the last) the number of
performances is exactly the number of periods elapsed. -/
theorem C11_workflow_on_schedule (c : Cfg) (hc : CfgOk c) (oms0 : List OutMan) (wfs0 : List Workflow)
    (ho : ∀ om ∈ oms0, FreshOut om) (hw : ∀ w ∈ wfs0, FreshWf w) (s : St) (hr : Reach c oms0 wfs0 s)
    (i : Nat) (w0 w : Workflow) (h0 : wfs0[i]? = some w0) (h1 : s.wfs[i]? = some w)
    (hfreq : isZero w0.freq = false) (hstep : StepNotLonger c.dt w0.freq)
    (due : ℕ → Time) (hdue : IsSched c.tstart w0.freq due) :
    elapsedUs (due w.done.length) ≤ elapsedUs s.time ∧
      elapsedUs s.time < elapsedUs (due (w.done.length + 1)) := by
  have hI := reach_inv c hc oms0 wfs0 ho hw s hr
  have h := (forall₂_get hI.wfs i w0 w h0 h1).2
  obtain ⟨m2, m3⟩ := h.sched due hdue
  constructor
  · cases hm : w.done.length with
    | zero => rw [hdue.1]; exact hI.ge
    | succ m =>
      have hlt : m < w.done.length := by omega
      have := m3 m _ (List.getElem?_eq_getElem hlt)
      have := h.le _ (List.getElem_mem hlt)
      omega
  · rw [← m2]; exact h.cad hfreq hstep

example : StepNotLonger exCfg.dt exWf.freq := by
  intro t u t' u' ht hu h2 h3
  rw [C02_add_exact t _ t' ht.1.1 rfl rfl h2, C02_add_exact u _ u' hu.1.1 rfl rfl h3]
  have : exCfg.dt.day = 0 ∧ exCfg.dt.second = 420 ∧ exCfg.dt.usec = 0 := by decide
  have : exWf.freq.day = 0 ∧ exWf.freq.second = 600 ∧ exWf.freq.usec = 0 := by decide
  omega

/-! ### C12 -/

theorem performSeq_chunked (n : Nat) (hn : 0 < n) (ts : List Time) (om om' : OutMan) (hp : om.nPerFile = n)
    (h : Chunked n om) (hs : performSeq om ts = .ok om') :
    Chunked n om' ∧ om'.log.map Rec.time = om.log.map Rec.time ++ ts := by
  induction ts generalizing om with
  | nil => simp only [performSeq, Except.ok.injEq] at hs; subst hs; exact ⟨h, by simp⟩
  | cons t ts ih =>
    unfold performSeq at hs
    cases hq : performOutput om t with
    | error e => rw [hq] at hs; cases hs
    | ok om1 =>
      rw [hq] at hs
      simp only at hs
      have hc := performOutput_chunked n hn om om1 t hp h hq
      have hfields : om1.nPerFile = om.nPerFile ∧ om1.log.map Rec.time = om.log.map Rec.time ++ [t] := by
        unfold performOutput at hq
        split_ifs at hq
        simp only [Except.ok.injEq] at hq
        rw [← hq]
        unfold closeIfFull writeRecord
        split_ifs <;> simp
      obtain ⟨a, b⟩ := ih om1 (by rw [hfields.1, hp]) hc hs
      exact ⟨a, by rw [b, hfields.2]; simp⟩

/-- C12: for every sequence of output calls, with `n ≥ 1` records per file record number `k` is the `k`-th
call, written at position `k mod n` of file number `k div n`; the files opened are exactly the
`ceil(len / n)` files written to, file `f` being opened by (and named after) record `f * n`; and the file is
left open exactly when it is not full. -/
theorem C12_files_filled_in_order (n : Nat) (hn : 0 < n) (om0 om : OutMan) (hf : FreshOut om0)
    (hp : om0.nPerFile = n) (ts : List Time) (hs : performSeq om0 ts = .ok om) :
    om.log.length = ts.length ∧
    (∀ (k : Nat) r, om.log[k]? = some r → ts[k]? = some r.time ∧ r.file = k / n ∧ r.pos = k % n) ∧
    om.opened.length = (ts.length + n - 1) / n ∧
    (∀ (f : Nat) t, om.opened[f]? = some t → ts[f * n]? = some t) ∧
    (om.isOpen = true ↔ ¬ n ∣ ts.length) := by
  obtain ⟨c, hl⟩ := performSeq_chunked n hn ts om0 om hp (chunked_empty n hn om0 hf) hs
  rw [hf.log] at hl
  simp only [List.map_nil, List.nil_append] at hl
  have hlen : om.log.length = ts.length := by rw [← hl]; simp
  refine ⟨hlen, ?_, ?_, ?_, ?_⟩
  · intro k r hk
    refine ⟨?_, c.rec_ k r hk⟩
    rw [← hl, List.getElem?_map, hk]; rfl
  · rw [c.nopen, hlen]
  · intro f t hft
    obtain ⟨r, hr1, hr2⟩ := c.ofile f t hft
    rw [← hl, List.getElem?_map, hr1, ← hr2]; rfl
  · rw [c.opn, hlen, Nat.dvd_iff_mod_eq_zero]; simp

example : FreshOut exOut ∧ exOut.nPerFile = (2 : Nat) ∧
    ∃ om, performSeq exOut [exCfg.tstart, exCfg.tend, exCfg.tend] = .ok om :=
  ⟨exOut_fresh, rfl, _, rfl⟩

/-- C12: output calls on a manager whose files can be opened never fail, so the above covers every sequence. -/
theorem C12_calls_succeed (om : OutMan) (h : ∀ t, om.canOpen t = true) (ts : List Time) :
    ∃ om', performSeq om ts = .ok om' := by
  induction ts generalizing om with
  | nil => exact ⟨om, rfl⟩
  | cons t ts ih =>
    obtain ⟨om1, p1, _, _, _, p5, _⟩ := performOutput_spec om t (h t)
    obtain ⟨om', h'⟩ := ih om1 (by rw [p5]; exact h)
    exact ⟨om', by simp only [performSeq, p1, h']⟩

/-- C12 within a run: at every moment each output manager's records are laid out that way. -/
theorem C12_files_during_run (c : Cfg) (hc : CfgOk c) (oms0 : List OutMan) (wfs0 : List Workflow)
    (ho : ∀ om ∈ oms0, FreshOut om) (hw : ∀ w ∈ wfs0, FreshWf w) (s : St) (hr : Reach c oms0 wfs0 s)
    (i : Nat) (om0 om : OutMan) (h0 : oms0[i]? = some om0) (h1 : s.oms[i]? = some om)
    (n : Nat) (hn : 0 < n) (hp : om0.nPerFile = n) :
    (∀ (k : Nat) r, om.log[k]? = some r → r.file = k / n ∧ r.pos = k % n) ∧
    om.opened.length = (om.log.length + n - 1) / n ∧
    (om.isOpen = true ↔ ¬ n ∣ om.log.length) := by
  have h := ((forall₂_get (reach_inv c hc oms0 wfs0 ho hw s hr).oms i om0 om h0 h1).2).chunk n hn hp
  refine ⟨h.rec_, h.nopen, ?_⟩
  rw [h.opn, Nat.dvd_iff_mod_eq_zero]; simp

/-! ### C64 -/

/-- C64: the files opened during a run have pairwise different names, provided no two output times fall in the
same second (missing: output intervals below one second, where it is false). -/
theorem C64_file_names_distinct_partial (c : Cfg) (hc : CfgOk c) (oms0 : List OutMan) (wfs0 : List Workflow)
    (ho : ∀ om ∈ oms0, FreshOut om) (hw : ∀ w ∈ wfs0, FreshWf w) (s : St) (hr : Reach c oms0 wfs0 s)
    (i : Nat) (om0 om : OutMan) (h0 : oms0[i]? = some om0) (h1 : s.oms[i]? = some om)
    (n : Nat) (hn : 0 < n) (hp : om0.nPerFile = n)
    (hsec : (writeTimes om).Pairwise (fun a b => elapsedUs a / 1000000 ≠ elapsedUs b / 1000000))
    (f g : Nat) (a b : Time) (hfg : f ≠ g) (ha : om.opened[f]? = some a) (hb : om.opened[g]? = some b)
    (hya : 0 ≤ a.year) (hyb : 0 ≤ b.year) :
    toShortString a ≠ toShortString b := by
  have hI := (forall₂_get (reach_inv c hc oms0 wfs0 ho hw s hr).oms i om0 om h0 h1).2
  have h := hI.chunk n hn hp
  obtain ⟨ra, ra1, ra2⟩ := h.ofile f a ha
  obtain ⟨rb, rb1, rb2⟩ := h.ofile g b hb
  have fa : FV a := by rw [← ra2]; exact (hI.fv ra (List.mem_of_getElem? ra1)).1
  have fb : FV b := by rw [← rb2]; exact (hI.fv rb (List.mem_of_getElem? rb1)).1
  have wa : (writeTimes om)[f * n]? = some a := by unfold writeTimes; rw [List.getElem?_map, ra1, ← ra2]; rfl
  have wb : (writeTimes om)[g * n]? = some b := by unfold writeTimes; rw [List.getElem?_map, rb1, ← rb2]; rfl
  have hne : elapsedUs a / 1000000 ≠ elapsedUs b / 1000000 := by
    rw [List.pairwise_iff_getElem] at hsec
    obtain ⟨la, ea⟩ := List.getElem?_eq_some_iff.mp wa
    obtain ⟨lb, eb⟩ := List.getElem?_eq_some_iff.mp wb
    rcases Nat.lt_or_gt_of_ne hfg with hlt | hlt
    · have := hsec (f * n) (g * n) la lb (Nat.mul_lt_mul_of_pos_right hlt hn)
      rw [ea, eb] at this; exact this
    · have := hsec (g * n) (f * n) lb la (Nat.mul_lt_mul_of_pos_right hlt hn)
      rw [ea, eb] at this; exact fun h => this h.symm
  intro hcon
  have vr : ∀ t : Time, FV t → ValidFor (rule t.cal) t := by
    intro t ht; rw [rule_eq _ (Or.inl ht.1.1), ht.1.1]; exact ht.1.2
  obtain ⟨sa, hsa, _⟩ := C63_short_round_trip a a (Or.inl fa.1.1) (vr a fa) hya fa.2 rfl
  have hinj := C63_short_injective a b sa (Or.inl fa.1.1) (by rw [fa.1.1, fb.1.1]) (vr a fa) (vr b fb)
    hya hyb fa.2 fb.2 hsa (by rw [← hcon]; exact hsa)
  simp only [Time.mk.injEq] at hinj
  obtain ⟨i1, i2, i3, i4, _⟩ := hinj
  apply hne
  have ua : 0 ≤ a.usec ∧ a.usec < 1000000 := fa.1.2.2.2.2.2.2.2
  have ub : 0 ≤ b.usec ∧ b.usec < 1000000 := fb.1.2.2.2.2.2.2.2
  unfold elapsedUs
  rw [i1, i2, i3, i4]
  omega

/-- C64 is false in general: with an output frequency of a quarter second and one record per file, two
different files get the same name, so the second overwrites the first. -/
theorem C64_file_names_false : ∃ (om0 om : OutMan) (a b : Time), FreshOut om0 ∧ om0.nPerFile = 1 ∧
    performSeq om0 [a, b] = .ok om ∧ om.opened = [a, b] ∧ elapsedUs b = elapsedUs a + durUs om0.freq ∧
    toShortString a = toShortString b :=
  ⟨{ freq := ⟨0, 0, 0, 0, 250000, .noLeap, .delta⟩, nPerFile := 1, fromRestart := false, canOpen := fun _ => true }, _,
    ⟨2000, 0, 0, 0, 0, .noLeap, .fixed⟩, ⟨2000, 0, 0, 0, 250000, .noLeap, .fixed⟩,
    by constructor <;> first | decide | (intro _; rfl) | rfl, rfl, rfl, rfl, by decide, rfl⟩

end Verif.Run
