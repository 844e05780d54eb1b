/-
C150: one value in memory of its own or in memory given to it.
-/
import Verif.Container.Struct
import Mathlib.Data.Nat.Basic
namespace Verif.Container.Struct

/-- What holds between calls: the blocks allocated are those released and, last, the one in use; data that are not owned are outside. -/
def Good (w : World) : Prop :=
  w.released.map Prod.fst ++ (match w.data with | some (.block n) => [Place.block n] | _ => []) = (List.range w.blocks).map .block
    ∧ (∀ x ∈ w.released, x.2 = .deleteArray)
    ∧ (∀ n, w.data = some (.block n) → w.owns = true) ∧ (∀ k, w.data = some (.outside k) → w.owns = false)

theorem good_construct (mem : Place → Int) : Good (construct mem) := by
  simp [Good, construct]

theorem good_store {w : World} (h : Good w) (p : Place) (v : Int) : Good (store w p v) := h

theorem good_detach {w : World} (h : Good w) : Good (detach w) ∧ (detach w).data = none ∧ (detach w).blocks = w.blocks := by
  obtain ⟨ow, d, m, b, r⟩ := w
  obtain ⟨h1, h2, h3, h4⟩ := h
  simp only at h1 h2 h3 h4
  cases d with
  | none =>
    refine ⟨⟨?_, ?_, ?_, ?_⟩, rfl, ?_⟩
    · cases ow <;> simpa [detach] using h1
    · cases ow <;> simpa [detach] using h2
    · cases ow <;> simp [detach]
    · cases ow <;> simp [detach]
    · cases ow <;> rfl
  | some p =>
    cases p with
    | block n =>
      obtain rfl := h3 n rfl
      refine ⟨⟨?_, ?_, ?_, ?_⟩, rfl, rfl⟩
      · simpa [detach] using h1
      · intro x hx
        simp only [detach, List.mem_append, List.mem_singleton] at hx
        rcases hx with hx | rfl
        · exact h2 x hx
        · rfl
      · simp [detach]
      · simp [detach]
    | outside k =>
      obtain rfl := h4 k rfl
      refine ⟨⟨?_, ?_, ?_, ?_⟩, rfl, rfl⟩
      · simpa [detach] using h1
      · simpa [detach] using h2
      · simp [detach]
      · simp [detach]

theorem good_allocate {w w' : World} {v : Option Int} (h : Good w) (hc : allocate w = .ret w' v) :
    Good w' ∧ (∃ n, w'.data = some (.block n) ∧ w'.mem (.block n) = 0) ∧ (∀ k, w'.mem (.outside k) = w.mem (.outside k)) := by
  unfold allocate at hc
  by_cases ho : w.owns = false
  · rw [if_pos ho] at hc
    cases hc
  rw [if_neg ho] at hc
  have ho : w.owns = true := by simpa using ho
  obtain ⟨ow, d, m, b, r⟩ := w
  simp only at ho
  subst ho
  obtain ⟨h1, h2, h3, h4⟩ := h
  simp only at h1 h2 h3 h4
  cases d with
  | none =>
    simp only [detach, zero, store, Outcome.ret.injEq] at hc
    obtain ⟨rfl, -⟩ := hc
    refine ⟨⟨?_, h2, ?_, ?_⟩, ⟨b, rfl, by simp⟩, by simp⟩
    · simp only [List.append_nil] at h1
      simp only [List.range_succ, List.map_append, List.map_cons, List.map_nil, h1]
    · simp
    · simp
  | some p =>
    cases p with
    | outside k => exact absurd (h4 k rfl) (by simp)
    | block n =>
      simp only [zero, store, Outcome.ret.injEq] at hc
      obtain ⟨rfl, -⟩ := hc
      exact ⟨⟨h1, h2, by simp, by simp⟩, ⟨n, rfl, by simp⟩, by simp⟩

theorem good_call {w w' : World} {v : Option Int} (c : Call) (h : Good w) (hc : call w c = .ret w' v) : Good w' := by
  cases c with
  | allocate => exact (good_allocate h hc).1
  | attach ptr =>
    simp only [call, attach] at hc
    by_cases hd : w.data.isSome
    · rw [if_pos hd] at hc
      cases hc
    · rw [if_neg hd] at hc
      have hd : w.data = none := by simpa using hd
      cases hc
      obtain ⟨h1, h2, -, -⟩ := h
      rw [hd] at h1
      refine ⟨?_, h2, ?_, ?_⟩
      · cases ptr <;> simpa using h1
      · cases ptr <;> simp
      · simp
  | detach =>
    cases hc
    exact (good_detach h).1
  | deallocate =>
    simp only [call, deallocate] at hc
    by_cases ho : w.owns = false
    · rw [if_pos ho] at hc
      cases hc
    · rw [if_neg ho] at hc
      cases hc
      exact (good_detach h).1
  | zero =>
    simp only [call, zero] at hc
    cases hd : w.data with
    | none => rw [hd] at hc; cases hc
    | some p => rw [hd] at hc; cases hc; exact good_store h _ _
  | scale x =>
    simp only [call, scale] at hc
    cases hd : w.data with
    | none => rw [hd] at hc; cases hc
    | some p => rw [hd] at hc; cases hc; exact good_store h _ _
  | addProduct src x =>
    simp only [call, addProduct] at hc
    cases hd : w.data with
    | none => rw [hd] at hc; cases hc
    | some p =>
      rw [hd] at hc
      cases src with
      | none => cases hc
      | some k => cases hc; exact good_store h _ _
  | assign src =>
    simp only [call, assign] at hc
    cases src with
    | none =>
      by_cases hd : w.data.isSome
      · simp only [if_pos hd] at hc
        cases hc
      · simp only [if_neg hd] at hc
        cases hc
        exact h
    | some k =>
      by_cases hd : w.data.isSome
      · simp only [if_pos hd] at hc
        obtain ⟨p, hp⟩ := Option.isSome_iff_exists.1 hd
        rw [hp] at hc
        cases hc
        exact good_store h _ _
      · simp only [if_neg hd] at hc
        cases ha : allocate w with
        | ret u y =>
          obtain ⟨g, ⟨n, hn, -⟩, -⟩ := good_allocate h ha
          rw [ha] at hc
          simp only [hn] at hc
          cases hc
          exact good_store g _ _
        | thrown => rw [ha] at hc; cases hc
        | undefined => rw [ha] at hc; cases hc
  | set t =>
    simp only [call, set] at hc
    cases hd : w.data with
    | none => rw [hd] at hc; cases hc
    | some p => rw [hd] at hc; cases hc; exact good_store h _ _
  | read =>
    simp only [call, read] at hc
    cases hd : w.data with
    | none => rw [hd] at hc; cases hc
    | some p => rw [hd] at hc; cases hc; exact h

theorem good_run {w w' : World} (cs : List Call) (h : Good w) (hr : run w cs = some w') : Good w' := by
  induction cs generalizing w with
  | nil =>
    cases hr
    exact h
  | cons c cs ih =>
    unfold run at hr
    cases hc : call w c with
    | ret u v =>
      rw [hc] at hr
      exact ih (good_call c h hc) hr
    | thrown =>
      rw [hc] at hr
      exact ih h hr
    | undefined =>
      rw [hc] at hr
      cases hr

/-- C150: after any history and the destructor each block the object has allocated is released exactly once, in the order of allocation, and nothing outside
is released. -/
theorem C150_released (mem : Place → Int) (cs : List Call) {w : World} (hr : run (construct mem) cs = some w) :
    (detach w).released.map Prod.fst = (List.range w.blocks).map .block := by
  obtain ⟨⟨h1, -⟩, h2, h3⟩ := good_detach (good_run cs (good_construct mem) hr)
  rw [h2, h3] at h1
  simpa using h1

/-- C150, that memory is released by the function for it, is false: after any history with an allocation memory from malloc has been given to delete[]. -/
theorem C150_matching_false (mem : Place → Int) (cs : List Call) {w : World} (hr : run (construct mem) cs = some w) (hb : 0 < w.blocks) :
    (Place.block 0, Release.deleteArray) ∈ (detach w).released := by
  have h1 := C150_released mem cs hr
  have h2 := (good_detach (good_run cs (good_construct mem) hr)).1.2.1
  have : Place.block 0 ∈ (detach w).released.map Prod.fst := by
    rw [h1]
    exact List.mem_map.2 ⟨0, List.mem_range.2 hb, rfl⟩
  obtain ⟨⟨p, r⟩, hm, rfl⟩ := List.mem_map.1 this
  have := h2 _ hm
  simp only at this
  subst this
  exact hm

/-- C150: after any history the memory outside is changed by a call only where the object is attached. -/
theorem C150_outside (mem : Place → Int) (cs : List Call) {w w' : World} (hr : run (construct mem) cs = some w) (c : Call) {v : Option Int}
    (hc : call w c = .ret w' v) (k : Nat) (hk : w.data ≠ some (.outside k)) : w'.mem (.outside k) = w.mem (.outside k) := by
  have h := good_run cs (good_construct mem) hr
  have hs : ∀ p v, w.data = some p → (store w p v).mem (.outside k) = w.mem (.outside k) := by
    intro p v hp
    have : (Place.outside k) ≠ p := by
      rintro rfl
      exact hk hp
    simp [store, this]
  have hdet : ∀ w : World, (detach w).mem = w.mem := by
    intro w
    obtain ⟨ow, d, m, b, r⟩ := w
    cases ow <;> cases d <;> rfl
  cases c with
  | allocate => exact (good_allocate h hc).2.2 k
  | attach ptr =>
    simp only [call, attach] at hc
    by_cases hd : w.data.isSome
    · rw [if_pos hd] at hc
      cases hc
    · rw [if_neg hd] at hc
      cases hc
      rfl
  | detach =>
    cases hc
    rw [hdet]
  | deallocate =>
    simp only [call, deallocate] at hc
    by_cases ho : w.owns = false
    · rw [if_pos ho] at hc
      cases hc
    · rw [if_neg ho] at hc
      cases hc
      rw [hdet]
  | zero =>
    simp only [call, zero] at hc
    cases hd : w.data with
    | none => rw [hd] at hc; cases hc
    | some p => rw [hd] at hc; cases hc; exact hs _ _ hd
  | scale x =>
    simp only [call, scale] at hc
    cases hd : w.data with
    | none => rw [hd] at hc; cases hc
    | some p => rw [hd] at hc; cases hc; exact hs _ _ hd
  | addProduct src x =>
    simp only [call, addProduct] at hc
    cases hd : w.data with
    | none => rw [hd] at hc; cases hc
    | some p =>
      rw [hd] at hc
      cases src with
      | none => cases hc
      | some k => cases hc; exact hs _ _ hd
  | assign src =>
    simp only [call, assign] at hc
    cases src with
    | none =>
      by_cases hd : w.data.isSome
      · simp only [if_pos hd] at hc
        cases hc
      · simp only [if_neg hd] at hc
        cases hc
        rfl
    | some j =>
      by_cases hd : w.data.isSome
      · simp only [if_pos hd] at hc
        obtain ⟨p, hp⟩ := Option.isSome_iff_exists.1 hd
        rw [hp] at hc
        cases hc
        exact hs _ _ hp
      · simp only [if_neg hd] at hc
        cases ha : allocate w with
        | ret u y =>
          obtain ⟨g, ⟨n, hn, -⟩, hm⟩ := good_allocate h ha
          rw [ha] at hc
          simp only [hn] at hc
          cases hc
          simpa [store] using hm k
        | thrown => rw [ha] at hc; cases hc
        | undefined => rw [ha] at hc; cases hc
  | set t =>
    simp only [call, set] at hc
    cases hd : w.data with
    | none => rw [hd] at hc; cases hc
    | some p => rw [hd] at hc; cases hc; exact hs _ _ hd
  | read =>
    simp only [call, read] at hc
    cases hd : w.data with
    | none => rw [hd] at hc; cases hc
    | some p => rw [hd] at hc; cases hc; rfl

/-- What the cast to the value returns. -/
def Reads (w : World) (v : Int) : Prop := call w .read = .ret w (some v)

/-- C150: with data the calls do what their names say, seen through the cast to the value. -/
theorem C150_values (w : World) (v : Int) (h : Reads w v) :
    (∃ w', call w .zero = .ret w' none ∧ Reads w' 0) ∧ (∀ t, ∃ w', call w (.set t) = .ret w' none ∧ Reads w' t)
      ∧ (∀ x, ∃ w', call w (.scale x) = .ret w' none ∧ Reads w' (v * x))
      ∧ (∀ k x, ∃ w', call w (.addProduct (some k) x) = .ret w' none ∧ Reads w' (v + x * w.mem (.outside k)))
      ∧ (∀ k, ∃ w', call w (.assign (some k)) = .ret w' none ∧ Reads w' (w.mem (.outside k)))
      ∧ call w (.assign none) = .thrown ∧ (∀ x, call w (.addProduct none x) = .thrown) ∧ ∀ ptr, call w (.attach ptr) = .thrown := by
  obtain ⟨ow, d, m, b, r⟩ := w
  cases d with
  | none => simp [Reads, call, read] at h
  | some p =>
    simp only [Reads, call, read, Outcome.ret.injEq, Option.some.injEq, true_and] at h
    subst h
    simp [Reads, call, read, zero, set, scale, addProduct, assign, attach, store]

/-- C150: in any state without data: Allocate gives zero if nothing was attached, assignment from another object gives its value, and the other calls that
need data throw. -/
theorem C150_unattached (w : World) (hd : w.data = none) :
    (w.owns = true → (∃ w', call w .allocate = .ret w' none ∧ Reads w' 0)
      ∧ ∀ k, ∃ w', call w (.assign (some k)) = .ret w' none ∧ Reads w' (w.mem (.outside k)))
    ∧ call w .zero = .thrown ∧ (∀ x, call w (.scale x) = .thrown) ∧ (∀ s x, call w (.addProduct s x) = .thrown) ∧ (∀ t, call w (.set t) = .thrown)
    ∧ (∀ k, ∃ w', call w (.attach (some k)) = .ret w' none ∧ Reads w' (w.mem (.outside k))) := by
  obtain ⟨ow, d, m, b, r⟩ := w
  simp only at hd
  subst hd
  refine ⟨?_, rfl, fun _ => rfl, fun _ _ => rfl, fun _ => rfl, fun k => ⟨_, rfl, rfl⟩⟩
  intro ho
  simp only at ho
  subst ho
  constructor
  · exact ⟨_, rfl, by simp [Reads, call, read, store, detach]⟩
  · intro k
    refine ⟨_, rfl, ?_⟩
    simp [Reads, call, read, store, detach]

/-- C150, that every call without data throws, is false: the cast to the value reads through a null pointer. -/
theorem C150_read_false (w : World) (hd : w.data = none) : call w .read = .undefined := by
  simp only [call, read, hd]

/-- C150, that an object without data can be allocated, is false: after a null pointer is attached Allocate, Deallocate and assignment from another object throw
until Detach, though there are no data. -/
theorem C150_null_false (w : World) (hd : w.data = none) :
    ∃ w', call w (.attach none) = .ret w' none ∧ w'.data = none ∧ call w' .allocate = .thrown ∧ call w' .deallocate = .thrown
      ∧ ∀ k, call w' (.assign (some k)) = .thrown := by
  obtain ⟨ow, d, m, b, r⟩ := w
  simp only at hd
  subst hd
  exact ⟨_, rfl, rfl, rfl, rfl, fun _ => rfl⟩

/-- C150: memory that was attached can be detached, by Detach alone, and is then as it was. -/
theorem C150_detach (mem : Place → Int) (cs : List Call) {w : World} (hr : run (construct mem) cs = some w) (k : Nat)
    (hd : w.data = some (.outside k)) :
    call w .allocate = .thrown ∧ call w .deallocate = .thrown
      ∧ ∃ w', call w .detach = .ret w' none ∧ w'.data = none ∧ w'.owns = true ∧ w'.mem = w.mem ∧ w'.released = w.released := by
  have ho := (good_run cs (good_construct mem) hr).2.2.2 k hd
  obtain ⟨ow, d, m, b, r⟩ := w
  simp only at hd ho
  subst hd ho
  exact ⟨rfl, rfl, _, rfl, rfl, rfl, rfl, rfl⟩

/-- C150: the size in bytes is the least multiple of the word that holds the type. -/
theorem C150_size (size word : Nat) (hw : 0 < word) :
    word ∣ byteSize size word ∧ size ≤ byteSize size word ∧ ∀ n, word ∣ n → size ≤ n → byteSize size word ≤ n := by
  unfold byteSize
  have hdm := Nat.div_add_mod size word
  by_cases h : size % word = 0
  · rw [if_pos h]
    exact ⟨Nat.dvd_of_mod_eq_zero h, le_rfl, fun n _ hn => hn⟩
  · rw [if_neg h]
    refine ⟨⟨_, Nat.mul_comm _ _⟩, ?_, ?_⟩
    · have := Nat.mod_lt size hw
      rw [Nat.add_mul, Nat.one_mul, Nat.mul_comm]
      omega
    · rintro n ⟨j, rfl⟩ hn
      have : size / word < j := by
        by_contra hj
        have := Nat.mul_le_mul_left word (not_lt.1 hj)
        omega
      rw [Nat.mul_comm]
      exact Nat.mul_le_mul_left word this

/-- A history with two allocations and an attached place. -/
example : ∃ w, run (construct fun _ => 7) [.allocate, .set 3, .attach (some 0), .deallocate, .attach (some 4), .scale 2, .detach, .assign (some 4)] = some w
    ∧ Reads w 14 ∧ w.blocks = 2 := ⟨_, rfl, rfl, rfl⟩

end Verif.Container.Struct
