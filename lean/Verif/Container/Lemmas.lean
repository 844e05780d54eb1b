/-
Lemmas about containers.
-/
import Verif.Container.Spec
import Mathlib.Data.List.Nodup
import Mathlib.Data.List.Induction

namespace Verif.Container

theorem attachAll_fields (b : Buf) : ∀ cs o s,
    (attachAll b cs o s).st.chunks = s.chunks ∧ (attachAll b cs o s).st.size = s.size ∧
    (attachAll b cs o s).st.owns = s.owns ∧ (attachAll b cs o s).st.ptr = s.ptr ∧
    (attachAll b cs o s).st.alloced = s.alloced ∧ (attachAll b cs o s).st.freed = s.freed ∧
    (attachAll b cs o s).st.dead = s.dead := by
  intro cs
  induction cs with
  | nil => intro o s; simp [attachAll, Res.st]
  | cons c cs ih =>
    intro o s
    unfold attachAll attachChunk
    split_ifs
    · simp [Res.st]
    · simp only; exact ih _ _

theorem attachAll_ok (b : Buf) : ∀ cs o s, cs.Nodup → (∀ c ∈ cs, s.at_ c = none) →
    ∃ s', attachAll b cs o s = .ok s' ∧
      (∀ k c, cs[k]? = some c → s'.at_ c = some (b, o + ((cs.take k).map s.size).sum)) ∧
      ∀ c, c ∉ cs → s'.at_ c = s.at_ c := by
  intro cs
  induction cs with
  | nil => intro o s _ _; exact ⟨s, rfl, by simp, by simp⟩
  | cons c cs ih =>
    intro o s hn hu
    rw [List.nodup_cons] at hn
    unfold attachAll attachChunk
    rw [if_neg (by rw [hu c (by simp)]; simp)]
    simp only
    obtain ⟨s', e, h1, h2⟩ := ih (o + s.size c) { s with at_ := Function.update s.at_ c (some (b, o)) } hn.2
      (by intro d hd
          have : d ≠ c := by rintro rfl; exact hn.1 hd
          simp only [Function.update_of_ne this]
          exact hu d (by simp [hd]))
    refine ⟨s', e, ?_, ?_⟩
    · intro k d hk
      cases k with
      | zero =>
        simp only [List.getElem?_cons_zero, Option.some.injEq] at hk
        subst hk
        rw [h2 _ hn.1]; simp
      | succ k =>
        simp only [List.getElem?_cons_succ] at hk
        rw [h1 k d hk]; simp [Nat.add_assoc]
    · intro d hd
      simp only [List.mem_cons, not_or] at hd
      rw [h2 d hd.2]; simp only [Function.update_of_ne hd.1]

theorem totalByteSize_eq (size : Nat → Nat) : ∀ cs, (∀ c ∈ cs, size c % 8 = 0) →
    totalByteSize size cs = some (cs.map size).sum := by
  intro cs
  induction cs with
  | nil => intro _; rfl
  | cons c cs ih =>
    intro h
    unfold totalByteSize
    rw [if_neg (by have := h c (by simp); omega), ih (fun d hd => h d (by simp [hd]))]
    simp

theorem totalByteSize_none (size : Nat → Nat) : ∀ cs, (∃ c ∈ cs, size c % 8 ≠ 0) → totalByteSize size cs = none := by
  intro cs
  induction cs with
  | nil => rintro ⟨c, hc, _⟩; cases hc
  | cons c cs ih =>
    rintro ⟨d, hd, hm⟩
    unfold totalByteSize
    split_ifs with h
    · rfl
    · rcases List.mem_cons.mp hd with rfl | hd
      · exact absurd h (by simpa using hm)
      · rw [ih ⟨d, hd, hm⟩]; rfl

theorem take_sum_mod (f : Nat → Nat) : ∀ (cs : List Nat) (k : Nat), (∀ c ∈ cs, f c % 8 = 0) →
    ((cs.take k).map f).sum % 8 = 0 := by
  intro cs
  induction cs with
  | nil => intro k _; simp
  | cons c cs ih =>
    intro k h
    cases k with
    | zero => simp
    | succ k =>
      simp only [List.take_succ_cons, List.map_cons, List.sum_cons]
      have := ih k (fun d hd => h d (by simp [hd]))
      have := h c (by simp)
      omega

theorem detachAll_mem : ∀ cs at_ (c : Nat), c ∈ cs → detachAll cs at_ c = none := by
  intro cs
  induction cs using List.reverseRecOn with
  | nil => intro _ c h; cases h
  | append_singleton cs d ih =>
    intro a c h
    unfold detachAll at *
    rw [List.foldl_append]
    simp only [List.foldl_cons, List.foldl_nil]
    by_cases hd : c = d
    · subst hd; simp
    · rw [Function.update_of_ne hd]; exact ih a c (by simpa [hd] using h)

theorem detachAll_not_mem : ∀ cs at_ (c : Nat), c ∉ cs → detachAll cs at_ c = at_ c := by
  intro cs
  induction cs using List.reverseRecOn with
  | nil => intro _ c _; rfl
  | append_singleton cs d ih =>
    intro a c h
    unfold detachAll at *
    rw [List.foldl_append]
    simp only [List.foldl_cons, List.foldl_nil]
    simp only [List.mem_append, List.mem_singleton, not_or] at h
    rw [Function.update_of_ne h.2]; exact ih a c h.1

/-- The buffers the container obtained, numbered in order. -/
def obtained (s : St) : List Buf := (List.range s.alloced.length).map Buf.own

/-- The container's bookkeeping: what was released plus what it still owns is what it obtained. -/
structure Inv (s : St) : Prop where
  none_owns : s.ptr = none → s.owns = true
  ext : ∀ n, s.ptr = some (.ext n) → s.owns = false
  own : ∀ n, s.ptr = some (.own n) → s.owns = true
  log : s.freed ++ (match s.ptr with | some (.own n) => [Buf.own n] | _ => []) = obtained s

theorem inv_of_eq {s t : St} (h : Inv s) (h1 : t.ptr = s.ptr) (h2 : t.owns = s.owns) (h3 : t.freed = s.freed)
    (h4 : t.alloced = s.alloced) : Inv t := by
  refine ⟨?_, ?_, ?_, ?_⟩
  · rw [h1, h2]; exact h.none_owns
  · rw [h1, h2]; exact h.ext
  · rw [h1, h2]; exact h.own
  · unfold obtained; rw [h1, h3, h4]; exact h.log

theorem init_inv (size : Nat → Nat) : Inv (init size) :=
  ⟨fun _ => rfl, fun _ h => (by cases h), fun _ h => (by cases h), rfl⟩

theorem release_eq (s : St) (h : Inv s) : release s = obtained s := by
  have hl := h.log
  unfold release
  cases hp : s.ptr with
  | none => rw [hp] at hl; simp only [List.append_nil] at hl; cases s.owns <;> exact hl
  | some b =>
    rw [hp] at hl
    cases b with
    | own n => rw [h.own n hp]; exact hl
    | ext n => rw [h.ext n hp]; simpa using hl

theorem step_inv (op : Op) (s : St) (h : Inv s) : Inv (step op s).st := by
  cases op with
  | push c => exact inv_of_eq h rfl rfl rfl rfl
  | resize c n =>
    unfold step resize; simp only; split_ifs
    · exact h
    · exact inv_of_eq h rfl rfl rfl rfl
  | allocate m =>
    unfold step allocate; simp only
    by_cases hp : s.ptr ≠ none
    · rw [if_pos hp]; exact h
    · rw [if_neg hp]
      cases ht : totalByteSize s.size s.chunks with
      | none => exact h
      | some n =>
        simp only
        split_ifs
        · exact h
        · have hp' : s.ptr = none := by simpa using hp
          have hf := attachAll_fields (.own s.alloced.length) s.chunks 0
            { s with ptr := some (.own s.alloced.length), alloced := s.alloced ++ [n] }
          have hl := h.log
          rw [hp'] at hl
          simp only [List.append_nil] at hl
          refine ⟨?_, ?_, ?_, ?_⟩
          · rw [hf.2.2.2.1]; intro h; cases h
          · intro n; rw [hf.2.2.2.1]; intro h; cases h
          · intro n _; rw [hf.2.2.1]; exact h.none_owns hp'
          · unfold obtained; rw [hf.2.2.2.1, hf.2.2.2.2.1, hf.2.2.2.2.2.1]
            simp only [List.length_append, List.length_cons, List.length_nil, hl]
            unfold obtained
            rw [List.range_succ, List.map_append]; rfl
  | attachTo n =>
    unfold step attachTo; simp only
    split_ifs with hp
    · exact h
    · have hp' : s.ptr = none := by simpa using hp
      have hf := attachAll_fields (.ext n) s.chunks 0 { s with owns := false, ptr := some (.ext n) }
      have hl := h.log
      rw [hp'] at hl
      refine ⟨?_, ?_, ?_, ?_⟩
      · rw [hf.2.2.2.1]; intro h; cases h
      · intro m _; rw [hf.2.2.1]
      · intro m; rw [hf.2.2.2.1]; intro h; cases h
      · unfold obtained; rw [hf.2.2.2.1, hf.2.2.2.2.1, hf.2.2.2.2.2.1]; exact hl
  | detach =>
    refine ⟨fun _ => rfl, fun _ h => (by cases h), fun _ h => (by cases h), ?_⟩
    show release s ++ [] = obtained s
    rw [List.append_nil, release_eq s h]

theorem run_inv (ops : List Op) : ∀ s, Inv s → Inv (run ops s) := by
  induction ops with
  | nil => intro s h; exact h
  | cons op ops ih => intro s h; exact ih _ (step_inv op s h)

end Verif.Container
