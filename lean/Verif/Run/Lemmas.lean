/- Helper lemmas for the driver loop. -/
import Verif.Run.Spec
import Verif.Time.Props
import Mathlib.Data.List.Forall2

namespace Verif.Run

open Verif.TimeObj

/-- Days before month `k` counted from year 0. -/
def monthDays (k : Int) : Int := (k / 12) * 365 + daysBefore (k % 12)

theorem monthDays_succ (k : Int) : monthDays k + 28 ≤ monthDays (k + 1) := by
  unfold monthDays
  by_cases h : k % 12 = 11
  · have h1 : (k + 1) % 12 = 0 := by omega
    have h2 : (k + 1) / 12 = k / 12 + 1 := by omega
    rw [h1, h2, h]
    have : daysBefore 11 = 334 := by decide
    have : daysBefore 0 = 0 := by decide
    omega
  · have h1 : (k + 1) % 12 = k % 12 + 1 := by omega
    have h2 : (k + 1) / 12 = k / 12 := by omega
    rw [h1, h2, daysBefore_succ (k % 12) (by omega) (by omega)]
    have := dpm_pos false (k % 12)
    omega

theorem monthDays_add (k : Int) (n : ℕ) : monthDays k + 28 * n ≤ monthDays (k + n) := by
  induction n with
  | zero => simp
  | succ n ih =>
    have := monthDays_succ (k + n)
    have e : k + ((n + 1 : ℕ) : Int) = k + n + 1 := by push_cast; ring
    rw [e]; push_cast; omega

theorem elapsedDays_eq (y m d : Int) : elapsedDays y m d = y * 365 + monthDays m + d := by
  unfold elapsedDays monthDays; ring

theorem add_ok (t d : Time) (ht : FV t) (hd : NonNegDelta d) :
    ∃ t', addTime t d = .ok t' ∧ FV t' ∧ elapsedUs t ≤ elapsedUs t' ∧
      (isZero d = false → elapsedUs t < elapsedUs t') := by
  obtain ⟨d1, d2, d3, d4, d5, d6⟩ := hd
  obtain ⟨t', h1, h2⟩ := C01_nonneg_add_succeeds t d ht.1 d1 d3 d5 d6
  have h3 := h1
  unfold addTime at h3
  split_ifs at h3 with hx
  obtain ⟨e1, e2, e3⟩ := normalize_noLeap_ok _ t' (by exact ht.1.1) h3
  simp only at e3
  have hm := monthDays_add t.month d.month.toNat
  have em : (d.month.toNat : Int) = d.month := by omega
  rw [em] at hm
  refine ⟨t', h1, ⟨e1, by rw [e3]; exact ht.2⟩, ?_, ?_⟩
  · rw [e2]; unfold elapsedUs; simp only [elapsedDays_eq]; omega
  · intro hz
    rw [e2]; unfold elapsedUs; simp only [elapsedDays_eq]
    have hnz : d.year ≠ 0 ∨ d.month ≠ 0 ∨ d.day ≠ 0 ∨ d.second ≠ 0 ∨ d.usec ≠ 0 := by
      unfold isZero at hz
      by_contra hcon
      simp only [not_or, not_not] at hcon
      rw [if_pos hcon] at hz; cases hz
    omega

theorem lt_ok (a b : Time) (ha : FV a) (hb : FV b) :
    ltOp a b = .ok (decide (elapsedUs a < elapsedUs b)) :=
  (C03_order_is_elapsed_time a b ha.1 hb.1 (ha.2.trans hb.2.symm)).1

theorem ge_ok (a b : Time) (ha : FV a) (hb : FV b) :
    geOp a b = .ok (decide (elapsedUs b ≤ elapsedUs a)) := by
  unfold geOp
  rw [lt_ok a b ha hb]
  simp only [Except.map]
  congr 1
  by_cases h : elapsedUs a < elapsedUs b <;> simp [h] <;> omega

theorem fv_ext (a b : Time) (ha : FV a) (hb : FV b) (h : elapsedUs a = elapsedUs b) : a = b := by
  have := (C03_order_is_elapsed_time a b ha.1 hb.1 (ha.2.trans hb.2.symm)).2.2
  rw [h] at this
  exact (eqOp_iff a b).mp (by simpa using this)

theorem mapAll_forall₂ {α β : Type} (f : α → Except GoErr α) (P Q : β → α → Prop) (l0 : List β) (l : List α)
    (h : List.Forall₂ P l0 l) (hf : ∀ a0 a, P a0 a → ∃ b, f a = .ok b ∧ Q a0 b) :
    ∃ l', mapAll f l = .ok l' ∧ List.Forall₂ Q l0 l' := by
  induction h with
  | nil => exact ⟨[], rfl, .nil⟩
  | cons h1 _ ih =>
    obtain ⟨b, hb, hq⟩ := hf _ _ h1
    obtain ⟨l', hl, hl'⟩ := ih
    exact ⟨b :: l', by simp only [mapAll, hb, hl], .cons hq hl'⟩

/-! #### File chunking -/

/-- State of an output manager in terms of the number of records written so far. -/
structure Chunked (n : Nat) (om : OutMan) : Prop where
  file : om.ixFile = om.log.length / n
  pos : om.ixTime = om.log.length % n
  opn : om.isOpen = decide (om.log.length % n ≠ 0)
  rec_ : ∀ (k : Nat) r, om.log[k]? = some r → r.file = k / n ∧ r.pos = k % n
  nopen : om.opened.length = (om.log.length + n - 1) / n
  ofile : ∀ (f : Nat) t, om.opened[f]? = some t → ∃ r, om.log[f * n]? = some r ∧ r.time = t

theorem performOutput_chunked (n : Nat) (hn : 0 < n) (om om' : OutMan) (t : Time)
    (hper : om.nPerFile = n) (h : Chunked n om) (hp : performOutput om t = .ok om') : Chunked n om' := by
  unfold performOutput at hp
  split_ifs at hp
  simp only [Except.ok.injEq] at hp
  obtain ⟨h1, h2, h3, h4, h5, h6⟩ := h
  generalize hL : om.log.length = L at *
  have hlog : om'.log = om.log ++ [⟨om.ixFile, om.ixTime, t⟩] := by
    rw [← hp]; unfold closeIfFull writeRecord; split_ifs <;> rfl
  have hop : om'.opened = if om.isOpen then om.opened else om.opened ++ [t] := by
    rw [← hp]; unfold closeIfFull writeRecord; split_ifs <;> rfl
  have hmod : L % n < n := Nat.mod_lt _ hn
  have hdm : n * (L / n) + L % n = L := Nat.div_add_mod L n
  have hcase : (om.ixTime + 1 = n ∧ om'.ixFile = om.ixFile + 1 ∧ om'.ixTime = 0 ∧ om'.isOpen = false) ∨
      (om.ixTime + 1 ≠ n ∧ om'.ixFile = om.ixFile ∧ om'.ixTime = om.ixTime + 1 ∧ om'.isOpen = true) := by
    rw [← hp]; unfold closeIfFull writeRecord
    simp only [hper]
    by_cases hc : om.ixTime + 1 = n
    · left; rw [if_pos (by exact_mod_cast hc)]; exact ⟨hc, rfl, rfl, rfl⟩
    · right; rw [if_neg (by exact_mod_cast hc)]; exact ⟨hc, rfl, rfl, rfl⟩
  have hlen : om'.log.length = L + 1 := by rw [hlog]; simp [hL]
  have hdiv : ((L + 1) / n = L / n + 1 ∧ (L + 1) % n = 0 ∧ L % n + 1 = n) ∨
      ((L + 1) / n = L / n ∧ (L + 1) % n = L % n + 1 ∧ L % n + 1 ≠ n) := by
    by_cases hc : L % n + 1 = n
    · left
      have e : L + 1 = n * (L / n + 1) := by rw [Nat.mul_add, Nat.mul_one]; omega
      refine ⟨?_, ?_, hc⟩
      · rw [e, Nat.mul_div_cancel_left _ hn]
      · rw [e, Nat.mul_mod_right]
    · right
      have e : L + 1 = (L % n + 1) + n * (L / n) := by omega
      refine ⟨?_, ?_, hc⟩
      · rw [e, Nat.add_mul_div_left _ _ hn, Nat.div_eq_of_lt (by omega)]; omega
      · rw [e, Nat.add_mul_mod_self_left, Nat.mod_eq_of_lt (by omega)]
  refine ⟨?_, ?_, ?_, ?_, ?_, ?_⟩
  · rw [hlen]; omega
  · rw [hlen]; omega
  · rw [hlen]
    rcases hcase with c | c <;> rcases hdiv with d | d
    · rw [c.2.2.2]; simp [d.2.1]
    · omega
    · omega
    · rw [c.2.2.2]; simp [d.2.1]
  · intro k r hk
    rw [hlog] at hk
    rcases lt_trichotomy k L with hk' | hk' | hk'
    · rw [List.getElem?_append_left (by omega)] at hk
      exact h4 k r hk
    · subst hk'
      rw [List.getElem?_append_right (by omega), hL] at hk
      simp at hk
      subst hk
      exact ⟨h1, h2⟩
    · rw [List.getElem?_append_right (by omega)] at hk
      have : k - om.log.length ≥ 1 := by omega
      rw [List.getElem?_eq_none (by simpa using this)] at hk
      cases hk
  · rw [hlen, hop, h3]
    have e1 : (L + n - 1) / n = if L % n = 0 then L / n else L / n + 1 := by
      split_ifs with h0
      · have e : L + n - 1 = (n - 1) + n * (L / n) := by omega
        rw [e, Nat.add_mul_div_left _ _ hn, Nat.div_eq_of_lt (by omega)]; omega
      · have e : L + n - 1 = (L % n - 1) + n * (L / n + 1) := by rw [Nat.mul_add, Nat.mul_one]; omega
        rw [e, Nat.add_mul_div_left _ _ hn, Nat.div_eq_of_lt (by omega)]; omega
    have e2 : (L + 1 + n - 1) / n = L / n + 1 := by
      have e : L + 1 + n - 1 = L + n * 1 := by omega
      rw [e, Nat.add_mul_div_left _ _ hn]
    rw [e1] at h5
    rw [e2]
    by_cases h0 : L % n = 0
    · simp [h0] at h5 ⊢; exact h5
    · simp [h0] at h5 ⊢; exact h5
  · intro f t' hf
    rw [hop, h3] at hf
    have hext : ∀ (k : Nat) r, om.log[k]? = some r → om'.log[k]? = some r := by
      intro k r hk
      have hkl : k < om.log.length := by
        by_contra hcon; rw [List.getElem?_eq_none (by omega)] at hk; cases hk
      rw [hlog, List.getElem?_append_left hkl]; exact hk
    by_cases h0 : L % n = 0
    · simp only [h0, ne_eq, not_true_eq_false, decide_false, Bool.false_eq_true, if_false] at hf
      have e1 : om.opened.length = L / n := by
        rw [h5]
        have e : L + n - 1 = (n - 1) + n * (L / n) := by omega
        rw [e, Nat.add_mul_div_left _ _ hn, Nat.div_eq_of_lt (by omega)]; omega
      rcases Nat.lt_or_ge f (L / n) with hlt | hge
      · rw [List.getElem?_append_left (by omega)] at hf
        obtain ⟨r, hr1, hr2⟩ := h6 f t' hf
        exact ⟨r, hext _ _ hr1, hr2⟩
      · rw [List.getElem?_append_right (by omega), e1] at hf
        have hfe : f = L / n := by
          by_contra hcon
          rw [List.getElem?_eq_none (by simp; omega)] at hf; cases hf
        subst hfe
        simp at hf
        refine ⟨⟨om.ixFile, om.ixTime, t⟩, ?_, hf⟩
        have e : L / n * n = L := by rw [Nat.mul_comm]; omega
        rw [e, hlog, List.getElem?_append_right (by omega), hL]; simp
    · simp only [h0, ne_eq, not_false_eq_true, decide_true, if_true] at hf
      obtain ⟨r, hr1, hr2⟩ := h6 f t' hf
      exact ⟨r, hext _ _ hr1, hr2⟩

theorem performOutput_spec (om : OutMan) (t : Time) (h : om.canOpen t = true) :
    ∃ om', performOutput om t = .ok om' ∧ om'.freq = om.freq ∧ om'.nPerFile = om.nPerFile ∧
      om'.fromRestart = om.fromRestart ∧ om'.canOpen = om.canOpen ∧ om'.last = om.last ∧ om'.next = om.next ∧
      om'.log = om.log ++ [⟨om.ixFile, om.ixTime, t⟩] := by
  unfold performOutput
  rw [if_neg (by simp [h])]
  refine ⟨_, rfl, ?_⟩
  unfold closeIfFull writeRecord
  split_ifs <;> simp

/-! #### Invariant of one output manager -/

structure OMInv (c : Cfg) (om0 : OutMan) (T : Time) (fin : Bool) (om : OutMan) : Prop where
  freq : om.freq = om0.freq
  nPer : om.nPerFile = om0.nPerFile
  canOpen : om.canOpen = om0.canOpen
  nextFV : FV om.next
  fv : ∀ r ∈ om.log, FV r.time ∧ elapsedUs r.time ≤ elapsedUs T
  sorted : om.log.Pairwise (fun a b => elapsedUs a.time < elapsedUs b.time)
  head : om0.fromRestart = false → ∃ r, om.log.head? = some r ∧ r.time = c.tstart
  fin_ : fin = true → ∃ r, om.log.getLast? = some r ∧ r.time = c.tend
  last : fin = false → om.last = zeroTime ∨ elapsedUs om.last ≤ elapsedUs T
  chunk : ∀ n : Nat, 0 < n → om0.nPerFile = n → Chunked n om
  sched : fin = false → ∀ due, IsSched c.tstart om0.freq due →
    ∃ m, om.log.length = m + nInit om0 ∧ om.next = due (m + 1) ∧
      ∀ (k : Nat) r, om.log[k + nInit om0]? = some r → elapsedUs (due (k + 1)) ≤ elapsedUs r.time
  cad : fin = false → isZero om0.freq = false → StepNotLonger c.dt om0.freq → elapsedUs T < elapsedUs om.next
  zero : fin = false → isZero om0.freq = true → om.log.length = nInit om0

theorem chunked_empty (n : Nat) (hn : 0 < n) (om : OutMan) (h : FreshOut om) : Chunked n om := by
  refine ⟨?_, ?_, ?_, ?_, ?_, ?_⟩
  · rw [h.log, h.ixFile]; simp
  · rw [h.log, h.ixTime]; simp
  · rw [h.log, h.isOpen]; simp
  · rw [h.log]; simp
  · rw [h.opened, h.log]; simp; rw [Nat.div_eq_of_lt (by omega)]
  · rw [h.opened]; simp

theorem initial_inv (c : Cfg) (hc : CfgOk c) (om0 : OutMan) (h : FreshOut om0) :
    ∃ om, initialOutput om0 c.tstart = .ok om ∧ OMInv c om0 c.tstart false om := by
  obtain ⟨nx, n1, n2, n3, n4⟩ := add_ok c.tstart om0.freq hc.start h.freq
  unfold initialOutput
  by_cases hr : om0.fromRestart = true
  · rw [if_pos hr]
    simp only [n1, lift]
    refine ⟨_, rfl, ?_⟩
    constructor <;> try dsimp only
    · exact n2
    · rw [h.log]; simp
    · rw [h.log]; simp
    · rw [hr]; intro h0; cases h0
    · intro h0; cases h0
    · intro _; left; exact h.last
    · intro n hn _
      have := chunked_empty n hn om0 h
      exact ⟨this.file, this.pos, this.opn, this.rec_, this.nopen, this.ofile⟩
    · intro _ due hd
      refine ⟨0, ?_, ?_, ?_⟩
      · rw [h.log]; unfold nInit; rw [if_pos hr]; rfl
      · have := hd.2 0
        rw [hd.1, n1] at this
        simpa using this
      · rw [h.log]; simp
    · intro _ hz _; exact n4 hz
    · intro _ _; rw [h.log]; unfold nInit; rw [if_pos hr]; rfl
  · rw [if_neg hr]
    obtain ⟨om1, p1, p2, p3, p4, p5, p6, p7, p8⟩ := performOutput_spec om0 c.tstart (h.canOpen _)
    simp only [p1, p2, n1, lift]
    refine ⟨_, rfl, ?_⟩
    have hni : nInit om0 = 1 := by unfold nInit; rw [if_neg hr]
    rw [h.log] at p8
    constructor <;> try dsimp only
    · exact p3
    · exact p5
    · exact n2
    · rw [p8]; simp; exact hc.start
    · rw [p8]; simp
    · intro _; rw [p8]; simp
    · intro h0; cases h0
    · intro _; left; rw [p6]; exact h.last
    · intro n hn hper
      have := performOutput_chunked n hn om0 om1 c.tstart hper (chunked_empty n hn om0 h) p1
      exact ⟨this.file, this.pos, this.opn, this.rec_, this.nopen, this.ofile⟩
    · intro _ due hd
      refine ⟨0, ?_, ?_, ?_⟩
      · rw [p8, hni]; simp
      · have := hd.2 0
        rw [hd.1, n1] at this
        simpa using this
      · rw [p8, hni]; intro k r hk; simp at hk
    · intro _ hz _; exact n4 hz
    · intro _ _; rw [p8, hni]; simp

theorem om_step_inv (c : Cfg) (hc : CfgOk c) (om0 : OutMan) (h0 : FreshOut om0) (om : OutMan) (T T' : Time)
    (hT : FV T) (hT' : FV T') (hadd : addTime T c.dt = .ok T') (hlt : elapsedUs T < elapsedUs T')
    (h : OMInv c om0 T false om) :
    ∃ om', omStep false T' om = .ok om' ∧ OMInv c om0 T' false om' := by
  have hkeep : ∀ (hz : isZero om0.freq = false → elapsedUs T' < elapsedUs om.next), OMInv c om0 T' false om := by
    intro hz
    refine ⟨h.freq, h.nPer, h.canOpen, h.nextFV, ?_, h.sorted, h.head, ?_, ?_, h.chunk, h.sched, ?_, h.zero⟩
    · intro r hr; have := h.fv r hr; exact ⟨this.1, by omega⟩
    · intro h1; cases h1
    · intro _; rcases h.last rfl with h1 | h1
      · left; exact h1
      · right; omega
    · intro _ h1 _; exact hz h1
  unfold omStep isOutputNeeded
  rw [h.freq]
  rw [if_neg (by simp)]
  by_cases hz : isZero om0.freq = true
  · simp only [hz, if_true]
    exact ⟨om, rfl, hkeep (by rw [hz]; intro h1; cases h1)⟩
  · have hzf : isZero om0.freq = false := by simpa using hz
    rw [if_neg hz, lt_ok T' om.next hT' h.nextFV]
    simp only [lift]
    by_cases hlt2 : elapsedUs T' < elapsedUs om.next
    · simp only [hlt2, decide_true]
      exact ⟨om, rfl, hkeep (fun _ => hlt2)⟩
    · simp only [hlt2, decide_false]
      unfold manageOutput
      obtain ⟨om1, p1, p2, p3, p4, p5, p6, p7, p8⟩ :=
        performOutput_spec om T' (by rw [h.canOpen]; exact h0.canOpen _)
      obtain ⟨nx, n1, n2, n3, n4⟩ := add_ok om.next om0.freq h.nextFV h0.freq
      simp only [p1, p2, p7, h.freq, n1, lift]
      refine ⟨_, rfl, ?_⟩
      constructor <;> try dsimp only
      · rw [p3, h.nPer]
      · rw [p5, h.canOpen]
      · exact n2
      · intro r hr
        rw [p8] at hr
        simp at hr
        rcases hr with hr | hr
        · have := h.fv r hr; exact ⟨this.1, by omega⟩
        · rw [hr]; exact ⟨hT', le_refl _⟩
      · rw [p8, List.pairwise_append]
        refine ⟨h.sorted, by simp, ?_⟩
        intro a ha b hb
        simp at hb
        rw [hb]; have := h.fv a ha; simp only; omega
      · intro h1
        obtain ⟨r, hr1, hr2⟩ := h.head h1
        refine ⟨r, ?_, hr2⟩
        rw [p8, List.head?_append, hr1]; rfl
      · intro h1; cases h1
      · intro _; right; exact le_refl _
      · intro n hn hper
        have := performOutput_chunked n hn om om1 T' (by rw [h.nPer]; exact hper) (h.chunk n hn hper) p1
        exact ⟨this.file, this.pos, this.opn, this.rec_, this.nopen, this.ofile⟩
      · intro _ due hd
        obtain ⟨m, m1, m2, m3⟩ := h.sched rfl due hd
        refine ⟨m + 1, ?_, ?_, ?_⟩
        · rw [p8]; simp; omega
        · have := hd.2 (m + 1)
          rw [← m2, n1] at this
          simpa using this
        · intro k r hk
          rw [p8] at hk
          rcases Nat.lt_trichotomy k m with hkm | hkm | hkm
          · rw [List.getElem?_append_left (by omega)] at hk
            exact m3 k r hk
          · subst hkm
            rw [← m1, List.getElem?_append_right (le_refl _)] at hk
            simp at hk
            rw [← hk, ← m2]; simp only; omega
          · rw [List.getElem?_append_right (by omega), List.getElem?_eq_none (by simp; omega)] at hk
            cases hk
      · intro _ h1 h2
        have := h.cad rfl h1 h2
        have := h2 T om.next T' nx hT h.nextFV hadd n1
        omega
      · intro _ h1; rw [h1] at hzf; cases hzf

theorem om_final_inv (c : Cfg) (hc : CfgOk c) (om0 : OutMan) (h0 : FreshOut om0) (om : OutMan) (T : Time)
    (hlt : elapsedUs T < elapsedUs c.tend) (h : OMInv c om0 T false om) :
    ∃ om', omStep true c.tend om = .ok om' ∧ OMInv c om0 c.tend true om' ∧
      om'.log.length = om.log.length + 1 := by
  unfold omStep finalOutput
  rw [if_pos rfl]
  have hz : elapsedUs zeroTime = 0 := by decide
  have hpos : 0 < elapsedUs c.tend := by
    have := hc.lt
    obtain ⟨⟨_, v1, v2, v3, v4, v5, v6, v7, v8⟩, _⟩ := hc.start
    have hy := hc.year
    unfold elapsedUs at this
    rw [elapsedDays_valid v1 v2] at this
    have := daysBefore_bound v1 v2
    unfold elapsedUs
    omega
  have hne : eqOp c.tend om.last = false := by
    rw [← Bool.not_eq_true, eqOp_iff]
    intro hcon
    rcases h.last rfl with h1 | h1
    · rw [h1] at hcon; rw [hcon, hz] at hpos; omega
    · rw [← hcon] at h1; omega
  rw [hne]
  simp only [Bool.false_eq_true, if_false]
  obtain ⟨om1, p1, p2, p3, p4, p5, p6, p7, p8⟩ :=
    performOutput_spec om c.tend (by rw [h.canOpen]; exact h0.canOpen _)
  refine ⟨om1, p1, ?_, by rw [p8]; simp⟩
  constructor
  · rw [p2, h.freq]
  · rw [p3, h.nPer]
  · rw [p5, h.canOpen]
  · rw [p7]; exact h.nextFV
  · intro r hr
    rw [p8] at hr
    simp at hr
    rcases hr with hr | hr
    · have := h.fv r hr; exact ⟨this.1, by omega⟩
    · rw [hr]; exact ⟨hc.stop, le_refl _⟩
  · rw [p8, List.pairwise_append]
    refine ⟨h.sorted, by simp, ?_⟩
    intro a ha b hb
    simp at hb
    rw [hb]; have := h.fv a ha; simp only; omega
  · intro h1
    obtain ⟨r, hr1, hr2⟩ := h.head h1
    refine ⟨r, ?_, hr2⟩
    rw [p8, List.head?_append, hr1]; rfl
  · intro _; rw [p8]; simp
  · intro h1; cases h1
  · intro n hn hper
    exact performOutput_chunked n hn om om1 c.tend (by rw [h.nPer]; exact hper) (h.chunk n hn hper) p1
  · intro h1; cases h1
  · intro h1; cases h1
  · intro h1; cases h1

/-! #### Invariant of one workflow process -/

structure WFInv (c : Cfg) (w0 : Workflow) (T : Time) (w : Workflow) : Prop where
  freq : w.freq = w0.freq
  nextFV : FV w.next
  sorted : w.done.Pairwise (fun a b => elapsedUs a < elapsedUs b)
  le : ∀ t ∈ w.done, elapsedUs t ≤ elapsedUs T
  sched : ∀ due, IsSched c.tstart w0.freq due → w.next = due (w.done.length + 1) ∧
    ∀ (k : Nat) t, w.done[k]? = some t → elapsedUs (due (k + 1)) ≤ elapsedUs t
  zero : isZero w0.freq = true → w.done = []
  cad : isZero w0.freq = false → StepNotLonger c.dt w0.freq → elapsedUs T < elapsedUs w.next

theorem wf_init_inv (c : Cfg) (hc : CfgOk c) (w0 : Workflow) (h : FreshWf w0) :
    ∃ w, wfInit w0 c.tstart = .ok w ∧ WFInv c w0 c.tstart w := by
  obtain ⟨nx, n1, n2, n3, n4⟩ := add_ok c.tstart w0.freq hc.start h.freq
  unfold wfInit
  simp only [n1, lift]
  refine ⟨_, rfl, ?_⟩
  constructor <;> try dsimp only
  · exact n2
  · rw [h.done]; simp
  · rw [h.done]; simp
  · intro due hd
    rw [h.done]
    refine ⟨?_, by simp⟩
    have := hd.2 0
    rw [hd.1, n1] at this
    simpa using this
  · intro _; exact h.done
  · intro hz _; exact n4 hz

theorem wf_step_inv (c : Cfg) (w0 : Workflow) (h0 : FreshWf w0) (w : Workflow) (T T' X : Time)
    (hT : FV T) (hT' : FV T') (hX : FV X) (hadd : addTime T c.dt = .ok X) (hXT : elapsedUs T' ≤ elapsedUs X)
    (hlt : elapsedUs T < elapsedUs T') (h : WFInv c w0 T w) :
    ∃ w', wfStep T' w = .ok w' ∧ WFInv c w0 T' w' := by
  have hkeep : ∀ (hz : isZero w0.freq = false → elapsedUs T' < elapsedUs w.next), WFInv c w0 T' w := by
    intro hz
    refine ⟨h.freq, h.nextFV, h.sorted, ?_, h.sched, h.zero, ?_⟩
    · intro t ht; have := h.le t ht; omega
    · intro h1 _; exact hz h1
  unfold wfStep wfReady
  rw [h.freq]
  by_cases hz : isZero w0.freq = true
  · simp only [hz, if_true]
    exact ⟨w, rfl, hkeep (by rw [hz]; intro h1; cases h1)⟩
  · have hzf : isZero w0.freq = false := by simpa using hz
    rw [if_neg hz, lt_ok T' w.next hT' h.nextFV]
    simp only [lift]
    by_cases hlt2 : elapsedUs T' < elapsedUs w.next
    · simp only [hlt2, decide_true]
      exact ⟨w, rfl, hkeep (fun _ => hlt2)⟩
    · simp only [hlt2, decide_false]
      unfold wfPerform
      obtain ⟨nx, n1, n2, n3, n4⟩ := add_ok w.next w0.freq h.nextFV h0.freq
      simp only [h.freq, n1, lift]
      refine ⟨_, rfl, ?_⟩
      constructor <;> try dsimp only
      · exact n2
      · rw [List.pairwise_append]
        refine ⟨h.sorted, by simp, ?_⟩
        intro a ha b hb
        simp at hb
        rw [hb]; have := h.le a ha; omega
      · intro t ht
        simp at ht
        rcases ht with ht | ht
        · have := h.le t ht; omega
        · rw [ht]
      · intro due hd
        obtain ⟨m2, m3⟩ := h.sched due hd
        refine ⟨?_, ?_⟩
        · have := hd.2 (w.done.length + 1)
          rw [← m2, n1] at this
          simpa using this
        · intro k t hk
          rcases Nat.lt_trichotomy k w.done.length with hkm | hkm | hkm
          · rw [List.getElem?_append_left (by omega)] at hk
            exact m3 k t hk
          · subst hkm
            rw [List.getElem?_append_right (le_refl _)] at hk
            simp at hk
            rw [← hk, ← m2]; omega
          · rw [List.getElem?_append_right (by omega), List.getElem?_eq_none (by simp; omega)] at hk
            cases hk
      · intro h1; rw [h1] at hzf; cases hzf
      · intro h1 h2
        have := h.cad h1 h2
        have := h2 T w.next X nx hT h.nextFV hadd n1
        omega

/-! #### Invariant of the loop -/

structure RunInv (c : Cfg) (oms0 : List OutMan) (wfs0 : List Workflow) (s : St) : Prop where
  fv : FV s.time
  ge : elapsedUs c.tstart ≤ elapsedUs s.time
  fin : s.finished = true → s.time = c.tend
  nfin : s.finished = false → elapsedUs s.time < elapsedUs c.tend
  oms : List.Forall₂ (fun om0 om => FreshOut om0 ∧ OMInv c om0 s.time s.finished om) oms0 s.oms
  wfs : List.Forall₂ (fun w0 w => FreshWf w0 ∧ WFInv c w0 s.time w) wfs0 s.wfs
  sum : s.dts.sum = ((elapsedUs s.time - elapsedUs c.tstart : Int) : ℚ) / 1000000
  pos : ∀ d ∈ s.dts, 0 < d
  len : s.times.length = s.dts.length
  tsorted : (c.tstart :: s.times).Pairwise (fun a b => elapsedUs a < elapsedUs b)
  tfv : ∀ t ∈ s.times, FV t
  tle : ∀ t ∈ c.tstart :: s.times, elapsedUs t ≤ elapsedUs s.time
  tlast : (c.tstart :: s.times).getLast? = some s.time
  nominal : s.finished = false → ∀ d ∈ s.dts, c.dt.year = 0 → c.dt.month = 0 →
    d = (c.dt.day : ℚ) * 86400 + c.dt.second + (c.dt.usec : ℚ) / 1000000
  bound : ∀ d ∈ s.dts, c.dt.year = 0 → c.dt.month = 0 →
    d ≤ (c.dt.day : ℚ) * 86400 + c.dt.second + (c.dt.usec : ℚ) / 1000000

theorem init_inv (c : Cfg) (hc : CfgOk c) (oms0 : List OutMan) (wfs0 : List Workflow)
    (ho : ∀ om ∈ oms0, FreshOut om) (hw : ∀ w ∈ wfs0, FreshWf w) :
    ∃ s, goInit c oms0 wfs0 = .ok (some s) ∧ RunInv c oms0 wfs0 s ∧ s.finished = false ∧ s.dts = [] := by
  unfold goInit
  rw [hc.pos, ge_ok _ _ hc.start hc.stop]
  have : ¬ elapsedUs c.tend ≤ elapsedUs c.tstart := by have := hc.lt; omega
  simp only [Bool.false_eq_true, if_false, lift, this, decide_false]
  obtain ⟨oms, o1, o2⟩ := mapAll_forall₂ (fun om => initialOutput om c.tstart)
    (fun (om0 : OutMan) om => om0 = om ∧ FreshOut om0) (fun om0 om => FreshOut om0 ∧ OMInv c om0 c.tstart false om)
    oms0 oms0 (List.forall₂_same.2 fun x hx => ⟨rfl, ho x hx⟩) (by
      rintro a _ ⟨rfl, h⟩
      obtain ⟨b, h1, h2⟩ := initial_inv c hc a h
      exact ⟨b, h1, h, h2⟩)
  obtain ⟨wfs, w1, w2⟩ := mapAll_forall₂ (fun w => wfInit w c.tstart)
    (fun (w0 : Workflow) w => w0 = w ∧ FreshWf w0) (fun w0 w => FreshWf w0 ∧ WFInv c w0 c.tstart w)
    wfs0 wfs0 (List.forall₂_same.2 fun x hx => ⟨rfl, hw x hx⟩) (by
      rintro a _ ⟨rfl, h⟩
      obtain ⟨b, h1, h2⟩ := wf_init_inv c hc a h
      exact ⟨b, h1, h, h2⟩)
  simp only [o1, w1]
  refine ⟨_, rfl, ?_, rfl, rfl⟩
  constructor <;> simp
  · exact hc.start
  · exact hc.lt
  · exact o2
  · exact w2

theorem sched_nominal (c : Cfg) (T T' : Time) (hT : FV T) (hadd : addTime T c.dt = .ok T')
    (hy : c.dt.year = 0) (hm : c.dt.month = 0) :
    elapsedUs T' - elapsedUs T = (c.dt.day * 86400 + c.dt.second) * 1000000 + c.dt.usec := by
  rw [C02_add_exact T c.dt T' hT.1.1 hy hm hadd]; ring

theorem afterStep_inv (c : Cfg) (hc : CfgOk c) (oms0 : List OutMan) (wfs0 : List Workflow) (s : St)
    (h : RunInv c oms0 wfs0 s) (hf : s.finished = false) (X T' : Time) (hX : FV X) (hT' : FV T')
    (last : Bool) (hlast : last = true → T' = c.tend) (hnl : last = false → T' = X ∧ elapsedUs T' < elapsedUs c.tend)
    (hadd : addTime s.time c.dt = .ok X) (hXT : elapsedUs T' ≤ elapsedUs X)
    (hlt : elapsedUs s.time < elapsedUs T') :
    ∃ s', afterStep s last (((elapsedUs T' - elapsedUs s.time : Int) : ℚ) / 1000000) T' = .ok s' ∧
      RunInv c oms0 wfs0 s' ∧ s'.time = T' ∧ s'.finished = last ∧ s'.dts.length = s.dts.length + 1 := by
  obtain ⟨wfs, w1, w2⟩ := mapAll_forall₂ (wfStep T') (fun w0 w => FreshWf w0 ∧ WFInv c w0 s.time w)
    (fun w0 w => FreshWf w0 ∧ WFInv c w0 T' w) wfs0 s.wfs h.wfs (by
      rintro w0 w ⟨f, i⟩
      obtain ⟨w', e1, e2⟩ := wf_step_inv c w0 f w s.time T' X h.fv hT' hX hadd hXT hlt i
      exact ⟨w', e1, f, e2⟩)
  have ho := h.oms
  rw [hf] at ho
  obtain ⟨oms, o1, o2⟩ := mapAll_forall₂ (omStep last T') (fun om0 om => FreshOut om0 ∧ OMInv c om0 s.time false om)
    (fun om0 om => FreshOut om0 ∧ OMInv c om0 T' last om) oms0 s.oms ho (by
      rintro w0 w ⟨f, i⟩
      cases hl : last with
      | true =>
        have := hlast hl; subst this
        obtain ⟨w', e1, e2, _⟩ := om_final_inv c hc w0 f w s.time hlt i
        exact ⟨w', e1, f, e2⟩
      | false =>
        have := (hnl hl).1; subst this
        obtain ⟨w', e1, e2⟩ := om_step_inv c hc w0 f w s.time T' h.fv hT' hadd hlt i
        exact ⟨w', e1, f, e2⟩)
  unfold afterStep
  simp only [w1, o1]
  refine ⟨_, rfl, ?_, rfl, rfl, by simp⟩
  have hge := h.ge
  have hnom : c.dt.year = 0 → c.dt.month = 0 → ((elapsedUs T' - elapsedUs s.time : Int) : ℚ) / 1000000 ≤
      (c.dt.day : ℚ) * 86400 + c.dt.second + (c.dt.usec : ℚ) / 1000000 := by
    intro hy hm
    have h1 := sched_nominal c s.time X h.fv hadd hy hm
    have h2 : elapsedUs T' - elapsedUs s.time ≤ (c.dt.day * 86400 + c.dt.second) * 1000000 + c.dt.usec := by
      omega
    have h3 : ((elapsedUs T' - elapsedUs s.time : Int) : ℚ) ≤
        (((c.dt.day * 86400 + c.dt.second) * 1000000 + c.dt.usec : Int) : ℚ) := by exact_mod_cast h2
    rw [div_le_iff₀ (by norm_num)]
    push_cast at h3 ⊢
    linarith
  constructor <;> try dsimp only
  · exact hT'
  · omega
  · exact hlast
  · intro hl; exact (hnl hl).2
  · exact o2
  · exact w2
  · rw [List.sum_append, h.sum]; simp; ring
  · intro d hd
    simp only [List.mem_append, List.mem_singleton] at hd
    rcases hd with hd | hd
    · exact h.pos d hd
    · rw [hd]
      have : (0 : Int) < elapsedUs T' - elapsedUs s.time := by omega
      have : (0 : ℚ) < ((elapsedUs T' - elapsedUs s.time : Int) : ℚ) := by exact_mod_cast this
      exact div_pos this (by norm_num)
  · simp [h.len]
  · rw [← List.cons_append, List.pairwise_append]
    refine ⟨h.tsorted, by simp, ?_⟩
    intro a ha b hb
    simp at hb; subst hb
    have := h.tle a ha; omega
  · intro t ht
    simp at ht
    rcases ht with ht | ht
    · exact h.tfv t ht
    · rw [ht]; exact hT'
  · intro t ht
    rw [← List.cons_append, List.mem_append] at ht
    rcases ht with ht | ht
    · have := h.tle t ht; omega
    · simp at ht; rw [ht]
  · rw [← List.cons_append, List.getLast?_append]; simp
  · intro hl d hd hy hm
    simp only [List.mem_append, List.mem_singleton] at hd
    rcases hd with hd | hd
    · exact h.nominal hf d hd hy hm
    · rw [hd]
      have := (hnl hl).1; subst this
      rw [sched_nominal c s.time T' h.fv hadd hy hm]
      push_cast; ring
  · intro d hd hy hm
    simp only [List.mem_append, List.mem_singleton] at hd
    rcases hd with hd | hd
    · exact h.bound d hd hy hm
    · rw [hd]; exact hnom hy hm

theorem stepOnce_inv (c : Cfg) (hc : CfgOk c) (oms0 : List OutMan) (wfs0 : List Workflow) (s : St)
    (h : RunInv c oms0 wfs0 s) (hf : s.finished = false) :
    ∃ s', stepOnce c s = .ok s' ∧ RunInv c oms0 wfs0 s' ∧ elapsedUs s.time < elapsedUs s'.time ∧
      s'.dts.length = s.dts.length + 1 := by
  obtain ⟨X, x1, x2, x3, x4⟩ := add_ok s.time c.dt h.fv hc.dt
  have x5 := x4 hc.pos
  unfold stepOnce
  rw [x1]
  simp only [lift]
  rw [ge_ok X c.tend x2 hc.stop]
  by_cases hl : elapsedUs c.tend ≤ elapsedUs X
  · simp only [hl, decide_true]
    rw [sub_eq c.tend s.time hc.stop.1 h.fv.1]
    simp only
    obtain ⟨s', e1, e2, e3, e4, e5⟩ := afterStep_inv c hc oms0 wfs0 s h hf X c.tend x2 hc.stop true (fun _ => rfl)
      (by intro h1; cases h1) x1 hl (h.nfin hf)
    exact ⟨s', e1, e2, by rw [e3]; exact h.nfin hf, e5⟩
  · simp only [hl, decide_false]
    rw [sub_eq X s.time x2.1 h.fv.1]
    simp only
    obtain ⟨s', e1, e2, e3, e4, e5⟩ := afterStep_inv c hc oms0 wfs0 s h hf X X x2 x2 false (by intro h1; cases h1)
      (fun _ => ⟨rfl, by omega⟩) x1 (le_refl _) x5
    exact ⟨s', e1, e2, by rw [e3]; exact x5, e5⟩

theorem runN_inv (c : Cfg) (hc : CfgOk c) (oms0 : List OutMan) (wfs0 : List Workflow) (n : Nat) (s : St)
    (h : RunInv c oms0 wfs0 s) : ∃ s', runN c n s = .ok s' ∧ RunInv c oms0 wfs0 s' := by
  induction n generalizing s with
  | zero => exact ⟨s, rfl, h⟩
  | succ n ih =>
    unfold runN
    by_cases hf : s.finished = true
    · rw [if_pos hf]; exact ⟨s, rfl, h⟩
    · rw [if_neg hf]
      obtain ⟨s', e1, e2, _⟩ := stepOnce_inv c hc oms0 wfs0 s h (by simpa using hf)
      simp only [e1]
      exact ih s' e2

theorem runN_finishes (c : Cfg) (hc : CfgOk c) (oms0 : List OutMan) (wfs0 : List Workflow) (k : Nat) (s : St)
    (h : RunInv c oms0 wfs0 s) (hk : elapsedUs c.tend - elapsedUs s.time ≤ k) :
    ∃ s', runN c (k + 1) s = .ok s' ∧ RunInv c oms0 wfs0 s' ∧ s'.finished = true := by
  induction k generalizing s with
  | zero =>
    by_cases hf : s.finished = true
    · exact ⟨s, by unfold runN; rw [if_pos hf], h, hf⟩
    · have := h.nfin (by simpa using hf); omega
  | succ k ih =>
    by_cases hf : s.finished = true
    · exact ⟨s, by unfold runN; rw [if_pos hf], h, hf⟩
    · obtain ⟨s', e1, e2, e3, _⟩ := stepOnce_inv c hc oms0 wfs0 s h (by simpa using hf)
      obtain ⟨s'', f1, f2, f3⟩ := ih s' e2 (by push_cast at hk; omega)
      refine ⟨s'', ?_, f2, f3⟩
      conv_lhs => unfold runN
      rw [if_neg hf]; simp only [e1]; exact f1

end Verif.Run
