import Verif.Base.TimerSpec
import Mathlib.Data.List.Basic

/-!
# C57: timer groups add up
-/

namespace Verif.Timer

open Spec

/-- No timers, no records. -/
def init : State := ⟨[], []⟩

theorem find_map (g : Groups) (f : Text × Record → Text × Record) (hf : ∀ e, (f e).1 = e.1) (n : Text) :
    find (g.map f) n = (g.find? (fun e => e.1 = n)).map (fun e => (f e).2) := by
  unfold find
  induction g with
  | nil => rfl
  | cons e es ih =>
    rw [List.map_cons, List.find?_cons, List.find?_cons, hf e]
    by_cases h : e.1 = n
    · simp [h]
    · simp only [h, decide_false]; exact ih

theorem find_key (g : Groups) (n : Text) (e : Text × Record)
    (h : g.find? (fun e => e.1 = n) = some e) : e.1 = n := by
  have := List.find?_some h
  simpa using this

theorem find_record (g : Groups) (n m : Text) (t : Nat) :
    find (record g n t) m =
      if m = n then
        some (match find g n with
          | some r => ⟨(r.total + t) % 18446744073709551616, (r.entries + 1) % 4294967296⟩
          | none => ⟨t, 1⟩)
      else find g m := by
  unfold record
  cases hf : g.find? (fun e => e.1 = n) with
  | some e =>
    have hfe : find g n = some e.2 := by rw [find, hf]; rfl
    rw [hfe]
    simp only
    rw [find_map _ _ (by intro e; by_cases h : e.1 = n <;> simp [h])]
    by_cases hm : m = n
    · subst hm
      rw [if_pos rfl, hf]
      have := find_key g m e hf
      simp [this]
    · rw [if_neg hm]
      unfold find
      cases hm2 : g.find? (fun e => e.1 = m) with
      | none => rfl
      | some e2 =>
        have := find_key g m e2 hm2
        simp [this, hm]
  | none =>
    have hfe : find g n = none := by rw [find, hf]; rfl
    rw [hfe]
    simp only
    unfold find
    rw [List.find?_append]
    by_cases hm : m = n
    · subst hm
      rw [if_pos rfl, hf]; simp
    · rw [if_neg hm]
      have : ¬ n = m := fun e => hm e.symm
      cases g.find? (fun e => e.1 = m) <;> simp [this]

theorem find_filter (g : Groups) (n m : Text) :
    find (g.filter (fun e => e.1 ≠ n)) m = if m = n then none else find g m := by
  unfold find
  induction g with
  | nil => simp
  | cons e es ih =>
    by_cases h : e.1 = n
    · rw [List.filter_cons, if_neg (by simp [h]), ih]
      by_cases hm : m = n
      · rw [if_pos hm, if_pos hm]
      · rw [if_neg hm, if_neg hm, List.find?_cons]
        have : ¬ e.1 = m := fun x => hm (x.symm.trans h)
        simp [this]
    · rw [List.filter_cons, if_pos (by simp [h]), List.find?_cons]
      by_cases he : e.1 = m
      · subst he
        simp [h]
      · simp only [he, decide_false]
        rw [ih]
        by_cases hm : m = n
        · rw [if_pos hm, if_pos hm]
        · rw [if_neg hm, if_neg hm, List.find?_cons]
          simp [he]

theorem timer_filter (s : State) (id i : Nat) :
    (State.timer ⟨s.timers.filter (fun e => e.1 ≠ id), s.groups⟩ i) =
      if i = id then none else s.timer i := by
  unfold State.timer
  simp only
  induction s.timers with
  | nil => simp
  | cons e es ih =>
    by_cases h : e.1 = id
    · rw [List.filter_cons, if_neg (by simp [h]), ih]
      by_cases hm : i = id
      · rw [if_pos hm, if_pos hm]
      · rw [if_neg hm, if_neg hm, List.find?_cons]
        have : ¬ e.1 = i := fun x => hm (x.symm.trans h)
        simp [this]
    · rw [List.filter_cons, if_pos (by simp [h]), List.find?_cons]
      by_cases he : e.1 = i
      · subst he
        simp [h]
      · simp only [he, decide_false]
        rw [ih]
        by_cases hm : i = id
        · rw [if_pos hm, if_pos hm]
        · rw [if_neg hm, if_neg hm, List.find?_cons]
          simp [he]

/-- The live timers of the program are those of the history. -/
def Agree (s : State) (l : Live) : Prop := ∀ i, (s.timer i).map (fun t => (t.group, t.start)) = l i

/-- The record of a group holds the sum and the number of the durations. -/
def Adds (s : State) (name : Text) (ds : List Int) : Prop :=
  find s.groups name = if ds = [] then none else
    some ⟨(ds.sum % 18446744073709551616).toNat, ds.length % 4294967296⟩

theorem agree_step (s s' : State) (l : Live) (o : Op) (h : Agree s l) (hs : step s o = some s') :
    Agree s' (live l o) := by
  cases o with
  | create id name now =>
    simp only [step] at hs
    cases ht : s.timer id with
    | some t => rw [ht] at hs; simp at hs
    | none =>
      rw [ht] at hs
      simp only [Option.some.injEq] at hs
      subst hs
      intro i
      simp only [live]
      have hnone : ∀ i, State.timer { s with timers := s.timers ++ [(id, construct name now)] } i =
          match s.timer i with
          | some t => some t
          | none => if i = id then some (construct name now) else none := by
        intro i
        unfold State.timer
        rw [List.find?_append]
        cases s.timers.find? (fun e => e.1 = i) with
        | some e => simp
        | none =>
          by_cases hi : i = id
          · subst hi; simp
          · have : ¬ id = i := fun e => hi e.symm
            simp [hi, this]
      rw [hnone i]
      by_cases hi : i = id
      · subst hi
        rw [ht, if_pos rfl, if_pos rfl]
        rfl
      · rw [if_neg (c := i = id) hi, ← h i]
        cases s.timer i <;> simp [hi]
  | restart id now =>
    simp only [step] at hs
    cases ht : s.timer id with
    | none => rw [ht] at hs; simp at hs
    | some t =>
      rw [ht] at hs
      simp only [Option.some.injEq] at hs
      subst hs
      intro i
      simp only [live]
      have hm : ∀ ts : List (Nat × Timer),
          ((ts.map (fun e => if e.1 = id then (id, t.reset now) else e)).find? (fun e => e.1 = i)).map (fun e => e.2) =
            (ts.find? (fun e => e.1 = i)).map (fun e => if i = id then t.reset now else e.2) := by
        intro ts
        induction ts with
        | nil => rfl
        | cons e es ih =>
          rw [List.map_cons, List.find?_cons, List.find?_cons]
          by_cases he : e.1 = id
          · simp only [he, if_true]
            by_cases hi : id = i
            · subst hi; simp
            · simp only [hi, decide_false]; exact ih
          · simp only [he, if_false]
            by_cases hi : e.1 = i
            · have : ¬ i = id := fun x => he (hi.trans x)
              simp [hi, this]
            · simp only [hi, decide_false]; exact ih
      have e1 : State.timer { s with timers := s.timers.map (fun e => if e.1 = id then (id, t.reset now) else e) } i =
          (s.timers.find? (fun e => e.1 = i)).map (fun e => if i = id then t.reset now else e.2) := hm s.timers
      rw [e1]
      by_cases hi : i = id
      · subst hi
        simp only [if_true]
        rw [← h i, ht]
        have : (s.timers.find? (fun e => e.1 = i)).isSome := by
          unfold State.timer at ht
          cases hx : s.timers.find? (fun e => e.1 = i) with
          | none => rw [hx] at ht; simp at ht
          | some e => rfl
        obtain ⟨e, he⟩ := Option.isSome_iff_exists.mp this
        rw [he]; rfl
      · simp only [hi, if_false]
        rw [← h i]; rfl
  | look id now =>
    simp only [step] at hs
    cases ht : s.timer id with
    | none => rw [ht] at hs; simp at hs
    | some t => rw [ht] at hs; simp only [Option.some.injEq] at hs; subst hs; exact h
  | stop id now =>
    simp only [step] at hs
    cases ht : s.timer id with
    | none => rw [ht] at hs; simp at hs
    | some t => rw [ht] at hs; simp only [Option.some.injEq] at hs; subst hs; exact h
  | delete id now =>
    simp only [step] at hs
    cases ht : s.timer id with
    | none => rw [ht] at hs; simp at hs
    | some t =>
      rw [ht] at hs
      simp only [Option.some.injEq] at hs
      subst hs
      intro i
      have := timer_filter s id i
      have e1 : State.timer ⟨s.timers.filter (fun e => e.1 ≠ id), destroy s.groups t now⟩ i =
          State.timer ⟨s.timers.filter (fun e => e.1 ≠ id), s.groups⟩ i := rfl
      rw [e1, this]
      simp only [live]
      by_cases hi : i = id
      · simp [hi]
      · rw [if_neg hi, if_neg hi]; exact h i
  | resetGroup n =>
    simp only [step] at hs
    cases hr : resetGroup s.groups n with
    | none => rw [hr] at hs; simp at hs
    | some g => rw [hr] at hs; simp only [Option.some.injEq] at hs; subst hs; exact h

theorem elapsed_eq (a b : Clock) : elapsed a b = (between a b % 18446744073709551616).toNat := rfl

theorem stop_adds (g : Groups) (t : Timer) (now : Clock) (name : Text) (hn : name ≠ []) (ds : List Int)
    (h : find g name = if ds = [] then none else
      some ⟨(ds.sum % 18446744073709551616).toNat, ds.length % 4294967296⟩) :
    find (stopTime g t now).2 name =
      if (if t.group = name then ds ++ [between t.start now] else ds) = [] then none else
        some ⟨((if t.group = name then ds ++ [between t.start now] else ds).sum % 18446744073709551616).toNat,
          (if t.group = name then ds ++ [between t.start now] else ds).length % 4294967296⟩ := by
  unfold stopTime time
  simp only
  by_cases h0 : t.group = []
  · rw [if_pos h0]
    have : ¬ t.group = name := fun e => hn (e.symm.trans h0)
    simp only [this, if_false]
    exact h
  · rw [if_neg h0, if_pos True.intro]
    simp only
    rw [find_record]
    by_cases hg : t.group = name
    · simp only [hg, if_true]
      rw [if_neg (by simp), h, elapsed_eq]
      congr 1
      by_cases hd : ds = []
      · subst hd
        simp
      · rw [if_neg hd]
        simp only [List.sum_append, List.sum_singleton, List.length_append, List.length_singleton]
        generalize ds.sum = S
        generalize between t.start now = B
        generalize ds.length = L
        congr 1 <;> omega
    · have : ¬ name = t.group := fun e => hg e.symm
      simp only [hg, this, if_false]
      exact h

theorem adds_step (s s' : State) (l : Live) (o : Op) (name : Text) (hn : name ≠ []) (ds : List Int)
    (ha : Agree s l) (h : Adds s name ds) (hs : step s o = some s') :
    Adds s' name (recorded name l ds o) := by
  have stops : ∀ id now t, s.timer id = some t →
      (match l id with
        | some (n, start) => if n = name then ds ++ [between start now] else ds
        | none => ds) = if t.group = name then ds ++ [between t.start now] else ds := by
    intro id now t ht
    rw [← ha id, ht]
    rfl
  cases o with
  | create id nm now =>
    simp only [step] at hs
    cases ht : s.timer id with
    | some t => rw [ht] at hs; simp at hs
    | none => rw [ht] at hs; simp only [Option.some.injEq] at hs; subst hs; exact h
  | restart id now =>
    simp only [step] at hs
    cases ht : s.timer id with
    | none => rw [ht] at hs; simp at hs
    | some t => rw [ht] at hs; simp only [Option.some.injEq] at hs; subst hs; exact h
  | look id now =>
    simp only [step] at hs
    cases ht : s.timer id with
    | none => rw [ht] at hs; simp at hs
    | some t =>
      rw [ht] at hs
      simp only [Option.some.injEq] at hs
      subst hs
      have : (time s.groups t now false).2 = s.groups := by
        unfold time
        by_cases h0 : t.group = [] <;> simp [h0]
      unfold Adds
      simp only [this]
      exact h
  | stop id now =>
    simp only [step] at hs
    cases ht : s.timer id with
    | none => rw [ht] at hs; simp at hs
    | some t =>
      rw [ht] at hs
      simp only [Option.some.injEq] at hs
      subst hs
      have e : recorded name l ds (.stop id now) = if t.group = name then ds ++ [between t.start now] else ds :=
        stops id now t ht
      rw [e]
      exact stop_adds s.groups t now name hn ds h
  | delete id now =>
    simp only [step] at hs
    cases ht : s.timer id with
    | none => rw [ht] at hs; simp at hs
    | some t =>
      rw [ht] at hs
      simp only [Option.some.injEq] at hs
      subst hs
      have e : recorded name l ds (.delete id now) = if t.group = name then ds ++ [between t.start now] else ds :=
        stops id now t ht
      rw [e]
      exact stop_adds s.groups t now name hn ds h
  | resetGroup n =>
    simp only [step] at hs
    cases hr : resetGroup s.groups n with
    | none => rw [hr] at hs; simp at hs
    | some g =>
      rw [hr] at hs
      simp only [Option.some.injEq] at hs
      subst hs
      unfold resetGroup at hr
      cases hf : find s.groups n with
      | none => rw [hf] at hr; simp at hr
      | some r =>
        rw [hf] at hr
        simp only [Option.some.injEq] at hr
        subst hr
        unfold Adds
        simp only [recorded]
        rw [find_filter]
        by_cases e : n = name
        · subst e; simp
        · have : ¬ name = n := fun x => e x.symm
          simp only [e, this, if_false]
          exact h

theorem run_adds (ops : List Op) (s s' : State) (l : Live) (name : Text) (hn : name ≠ []) (ds : List Int)
    (ha : Agree s l) (h : Adds s name ds) (hr : run s ops = some s') :
    Adds s' name (durations name l ds ops) := by
  induction ops generalizing s l ds with
  | nil => simp only [run, Option.some.injEq] at hr; subst hr; exact h
  | cons o os ih =>
    rw [run] at hr
    cases hs : step s o with
    | none => rw [hs] at hr; simp at hr
    | some b =>
      rw [hs, Option.bind_some] at hr
      exact ih b _ _ (agree_step s b l o ha hs) (adds_step s b l o name hn ds ha h hs) hr

/-- After any history, the record of every group holds the sum of the durations recorded
for it since it was last reset and how many there were, modulo the sizes of the two
counters; a group has a record exactly if there was at least one. -/
theorem C57_total (ops : List Op) (s : State) (h : run init ops = some s) (name : Text) (hn : name ≠ []) :
    getRecord s.groups name =
      if durations name nobody [] ops = [] then none else
        some ⟨((durations name nobody [] ops).sum % 18446744073709551616).toNat,
          (durations name nobody [] ops).length % 4294967296⟩ :=
  run_adds ops init s nobody name hn [] (fun _ => rfl) rfl h

/-- If the clock never ran backwards over a recorded interval and the counters did not
overflow, the sum, the number of entries and the average are exact. -/
theorem C57_exact (ops : List Op) (s : State) (h : run init ops = some s) (name : Text) (hn : name ≠ [])
    (ds : List Int) (hds : ds = durations name nobody [] ops) (hne : ds ≠ [])
    (hpos : ∀ d ∈ ds, 0 ≤ d) (hsum : ds.sum < 18446744073709551616) (hlen : ds.length < 4294967296) :
    (∃ r, getRecord s.groups name = some r ∧ (r.total : Int) = ds.sum ∧ r.entries = ds.length) ∧
    getEntries s.groups name = ds.length ∧
    ∃ a, getAverage s.groups name = some a ∧
      (a : Int) * ds.length ≤ ds.sum ∧ ds.sum < ((a : Int) + 1) * ds.length := by
  have hs0 : 0 ≤ ds.sum := by
    clear hds hne hsum hlen
    induction ds with
    | nil => simp
    | cons d ds ih =>
      rw [List.sum_cons]
      have := hpos d (by simp)
      have := ih (fun x hx => hpos x (by simp [hx]))
      omega
  have hl0 : 0 < ds.length := List.length_pos_iff.mpr hne
  have key := C57_total ops s h name hn
  rw [← hds, if_neg hne] at key
  have e1 : ds.sum % 18446744073709551616 = ds.sum := Int.emod_eq_of_lt hs0 hsum
  have e2 : ds.length % 4294967296 = ds.length := Nat.mod_eq_of_lt hlen
  rw [e1, e2] at key
  have hf : find s.groups name = some ⟨ds.sum.toNat, ds.length⟩ := key
  refine ⟨⟨_, key, ?_, rfl⟩, ?_, ds.sum.toNat / ds.length, ?_, ?_, ?_⟩
  · exact Int.toNat_of_nonneg hs0
  · unfold getEntries; rw [hf]
  · unfold getAverage; rw [hf]; simp only; rw [if_neg (by omega)]
  · have : ds.sum.toNat / ds.length * ds.length ≤ ds.sum.toNat := Nat.div_mul_le_self _ _
    have h2 : ((ds.sum.toNat / ds.length * ds.length : Nat) : Int) ≤ (ds.sum.toNat : Int) := by exact_mod_cast this
    rw [Int.toNat_of_nonneg hs0, Int.natCast_mul] at h2
    exact h2
  · have : ds.sum.toNat < (ds.sum.toNat / ds.length + 1) * ds.length := by
      rw [Nat.add_mul, Nat.one_mul, Nat.mul_comm]
      have := Nat.div_add_mod ds.sum.toNat ds.length
      have := Nat.mod_lt ds.sum.toNat hl0
      omega
    have h2 : ((ds.sum.toNat : Nat) : Int) < (((ds.sum.toNat / ds.length + 1) * ds.length : Nat) : Int) := by
      exact_mod_cast this
    rw [Int.toNat_of_nonneg hs0] at h2
    push_cast at h2 ⊢
    exact h2

/-- Resetting a group removes its record and no other; a group without a record cannot
be reset. -/
theorem C57_reset (g : Groups) (name : Text) :
    (getRecord g name = none ↔ resetGroup g name = none) ∧
    ∀ g', resetGroup g name = some g' →
      getRecord g' name = none ∧ ∀ m, m ≠ name → getRecord g' m = getRecord g m := by
  unfold getRecord resetGroup
  cases hf : find g name with
  | none => simp
  | some r =>
    refine ⟨by simp, ?_⟩
    intro g' hg
    simp only [Option.some.injEq] at hg
    subst hg
    constructor
    · rw [find_filter, if_pos rfl]
    · intro m hm
      rw [find_filter, if_neg hm]

/-- A timer that is only looked at during its life is counted once, when it is deleted,
with the time since it was created; no other group is touched. -/
theorem C57_once_partial (s : State) (id : Nat) (hid : s.timer id = none) (name : Text) (hn : name ≠ [])
    (t0 t1 : Clock) (looks : List Clock) :
    ∃ s', run s (.create id (some name) t0 :: (looks.map (fun c => Op.look id c) ++ [.delete id t1])) = some s' ∧
      (∀ m, m ≠ name → getRecord s'.groups m = getRecord s.groups m) ∧
      getRecord s'.groups name = some (match getRecord s.groups name with
        | none => ⟨elapsed t0 t1, 1⟩
        | some r => ⟨(r.total + elapsed t0 t1) % 18446744073709551616, (r.entries + 1) % 4294967296⟩) := by
  have hc : (State.mk (s.timers ++ [(id, construct (some name) t0)]) s.groups).timer id =
      some ⟨name, t0⟩ := by
    unfold State.timer at hid ⊢
    simp only
    rw [List.find?_append]
    cases hx : s.timers.find? (fun e => e.1 = id) with
    | some e => rw [hx] at hid; simp at hid
    | none => simp [construct]
  have hlook : ∀ (looks : List Clock) (rest : List Op) (a : State), a.timer id = some ⟨name, t0⟩ →
      run a (looks.map (fun c => Op.look id c) ++ rest) = run a rest := by
    intro looks rest
    induction looks with
    | nil => intro a _; rfl
    | cons c cs ih =>
      intro a ha
      rw [List.map_cons, List.cons_append, run]
      simp only [step, ha, Option.bind_some]
      have : (time a.groups ⟨name, t0⟩ c false).2 = a.groups := by
        unfold time; simp
      rw [this]
      exact ih a ha
  refine ⟨⟨(s.timers ++ [(id, construct (some name) t0)]).filter (fun e => e.1 ≠ id),
    destroy s.groups ⟨name, t0⟩ t1⟩, ?_, ?_, ?_⟩
  · rw [run]
    simp only [step, hid, Option.bind_some]
    rw [hlook _ _ _ hc]
    simp only [run, step, hc, Option.bind_some]
  · intro m hm
    unfold getRecord destroy stopTime time
    simp only
    rw [if_neg hn, if_pos True.intro]
    simp only
    rw [find_record, if_neg hm]
  · unfold getRecord destroy stopTime time
    simp only
    rw [if_neg hn, if_pos True.intro]
    simp only
    rw [find_record, if_pos rfl]
    cases find s.groups name <;> rfl

/-- The full claim, that each timer is counted once, fails: stopping a timer explicitly
and then letting it go out of scope counts it twice, and its time about twice. -/
theorem C57_false_once (name : Text) (hn : name ≠ []) (t0 t1 t2 : Clock) :
    ∃ s, run init [.create 0 (some name) t0, .stop 0 t1, .delete 0 t2] = some s ∧
      getEntries s.groups name = 2 ∧
      getRecord s.groups name = some ⟨(elapsed t0 t1 + elapsed t0 t2) % 18446744073709551616, 2⟩ := by
  have e1 : (stopTime [] ⟨name, t0⟩ t1).2 = [(name, ⟨elapsed t0 t1, 1⟩)] := by
    unfold stopTime time
    simp only
    rw [if_neg hn, if_pos True.intro]
    simp [record, find]
  have e2 : (stopTime [(name, ⟨elapsed t0 t1, 1⟩)] ⟨name, t0⟩ t2).2 =
      [(name, ⟨(elapsed t0 t1 + elapsed t0 t2) % 18446744073709551616, 2⟩)] := by
    unfold stopTime time
    simp only
    rw [if_neg hn, if_pos True.intro]
    simp [record, find]
  refine ⟨⟨[], [(name, ⟨(elapsed t0 t1 + elapsed t0 t2) % 18446744073709551616, 2⟩)]⟩, ?_, ?_, ?_⟩
  · simp only [run, step, init, State.timer, construct, List.nil_append, List.find?_nil,
      Option.map_none, Option.bind_some, List.find?_cons, decide_true, Option.map_some,
      Option.getD_some, destroy]
    rw [e1, e2]
    simp
  · simp [getEntries, find]
  · simp [getRecord, find]

/-- A timer without a name records nothing. -/
theorem C57_unnamed (g : Groups) (t0 t1 : Clock) :
    (stopTime g (construct none t0) t1).2 = g ∧ (stopTime g (construct none t0) t1).1 = elapsed t0 t1 :=
  ⟨rfl, rfl⟩

/-! ## The hypotheses are met -/

def demo : List Op :=
  [.create 0 (some "dyn".toList) ⟨10, 900000⟩, .create 1 (some "dyn".toList) ⟨11, 0⟩,
   .delete 0 ⟨12, 100000⟩, .look 1 ⟨13, 0⟩, .restart 1 ⟨14, 0⟩, .delete 1 ⟨14, 5⟩]

example : ∃ s, run init demo = some s ∧ s.groups = [("dyn".toList, ⟨1200005, 2⟩)] := ⟨_, rfl, by decide⟩

example : durations "dyn".toList nobody [] demo = [1200000, 5] := by decide

end Verif.Timer
