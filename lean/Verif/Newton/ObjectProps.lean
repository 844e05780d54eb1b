/-
C146: life of a Newton solver.
-/
import Verif.Newton.Object

namespace Verif.Newton

/-- Specification: the call initialises for some equations, with at least as many iterations per restart as equations. -/
def Call.good : Call → Option Params
  | .init p => if 0 < p.count ∧ p.count ≤ p.iter then some p else none
  | .step _ => none

/-- Specification: the first such call of a history. -/
def firstGood (calls : List Call) : Option Params := calls.findSome? Call.good

theorem run_stays (p : Params) (calls : List Call) : Object.run ⟨some true, some p⟩ calls = ⟨some true, some p⟩ := by
  unfold Object.run
  induction calls with
  | nil => rfl
  | cons c calls ih =>
    rw [List.foldl_cons]
    cases c <;> simpa [Object.after, Object.init] using ih

theorem run_plain (calls : List Call) :
    Object.plain.run calls = match firstGood calls with
      | some p => ⟨some true, some p⟩
      | none => Object.plain := by
  induction calls with
  | nil => rfl
  | cons c calls ih =>
    cases c with
    | step len =>
      have : firstGood (.step len :: calls) = firstGood calls := by simp [firstGood, List.findSome?_cons, Call.good]
      rw [this]
      exact ih
    | init p =>
      by_cases hp : 0 < p.count ∧ p.count ≤ p.iter
      · have : firstGood (.init p :: calls) = some p := by simp [firstGood, List.findSome?_cons, Call.good, hp]
        rw [this]
        have ha : Object.plain.after (.init p) = ⟨some true, some p⟩ := by
          have hn : ¬(p.iter < p.count ∨ p.count = 0) := by omega
          simp only [Object.after, Object.init, Object.plain, if_neg hn]
        unfold Object.run
        rw [List.foldl_cons, ha]
        exact run_stays p calls
      · have : firstGood (.init p :: calls) = firstGood calls := by simp [firstGood, List.findSome?_cons, Call.good, hp]
        rw [this]
        have ha : Object.plain.after (.init p) = Object.plain := by
          have hn : p.iter < p.count ∨ p.count = 0 := by omega
          simp only [Object.after, Object.init, Object.plain, if_pos hn]
        unfold Object.run at ih ⊢
        rw [List.foldl_cons, ha]
        exact ih

/-- C146: after any history of a default constructed solver, a step on a vector is done, and with the numbers of the first
good initialisation, exactly if there was one and the vector has as many elements as it has equations; otherwise the
step is refused. -/
theorem C146_step (calls : List Call) (len : Nat) :
    (Object.plain.run calls).step len = match firstGood calls with
      | some p => if len = p.count then .ret p else .thrown
      | none => .thrown := by
  rw [run_plain]
  cases firstGood calls with
  | none => by_cases h : len = 0 <;> simp [Object.step, Object.rows, Object.plain, h]
  | some p => by_cases h : len = p.count <;> simp [Object.step, Object.rows, h]

/-- C146: after any history initialisation is accepted exactly if there was no good one before and it is good, and refused
otherwise. -/
theorem C146_init (calls : List Call) (p : Params) :
    ((∃ O, (Object.plain.run calls).init p = .ret O) ↔ firstGood calls = none ∧ 0 < p.count ∧ p.count ≤ p.iter) ∧
    ((Object.plain.run calls).init p = .thrown ↔ firstGood calls ≠ none ∨ p.iter < p.count ∨ p.count = 0) := by
  rw [run_plain]
  cases firstGood calls with
  | none =>
    by_cases h : p.iter < p.count ∨ p.count = 0
    · have h2 : ¬(0 < p.count ∧ p.count ≤ p.iter) := by omega
      simp only [Object.init, Object.plain, if_pos h]
      exact ⟨⟨fun ⟨O, hO⟩ => (by cases hO), fun h3 => absurd h3.2 h2⟩, ⟨fun _ => Or.inr h, fun _ => trivial⟩⟩
    · have h2 : 0 < p.count ∧ p.count ≤ p.iter := by omega
      simp only [Object.init, Object.plain, if_neg h]
      exact ⟨⟨fun _ => ⟨trivial, h2⟩, fun _ => ⟨_, rfl⟩⟩, ⟨fun h3 => (by cases h3), fun h3 => absurd h3 (by simp; omega)⟩⟩
  | some q => simp [Object.init]

/-- C146, that the constructor with arguments gives an initialised solver, is false for all arguments: it reads a flag
that was never assigned. -/
theorem C146_construct_false (p : Params) : Object.construct p = .undefined := rfl

/-- A history with a refused, an accepted and a second initialisation. -/
example : (Object.plain.run [.step 3, .init ⟨3, 2, 1⟩, .init ⟨3, 3, 1⟩, .init ⟨5, 5, 1⟩]).step 3 = .ret ⟨3, 3, 1⟩ ∧
    (Object.plain.run [.step 3, .init ⟨3, 2, 1⟩, .init ⟨3, 3, 1⟩, .init ⟨5, 5, 1⟩]).step 5 = .thrown := by
  constructor <;> rw [C146_step] <;> simp [firstGood, List.findSome?_cons, Call.good]

end Verif.Newton
