import Verif.Mem.Spec
import Mathlib.Tactic.Ring
import Mathlib.Algebra.BigOperators.Group.List.Basic

namespace Verif.Mem

/-- The invariant of all reachable states. -/
structure Inv (w : World) : Prop where
  fresh : ∀ b, w.heap.next ≤ b → w.heap.blk b = none
  own : ∀ i b o, (w.arr i).owns = true → (w.arr i).ptr = some (b, o) →
    o = 0 ∧ ∃ B, w.heap.blk b = some B ∧ B.malloced = true ∧ B.len = byteSize (w.arr i)
  uniq : ∀ i j b o o', (w.arr i).owns = true → (w.arr i).ptr = some (b, o) →
    (w.arr j).owns = true → (w.arr j).ptr = some (b, o') → i = j
  view : ∀ i b o, (w.arr i).owns = false → (w.arr i).ptr = some (b, o) →
    ∃ B, w.heap.blk b = some B ∧ B.malloced = false ∧ o + byteSize (w.arr i) ≤ B.len
  noleak : ∀ b B, w.heap.blk b = some B → B.malloced = true →
    ∃ i o, (w.arr i).owns = true ∧ (w.arr i).ptr = some (b, o)
  nul : ∀ i, (w.arr i).ptr = none → (w.arr i).owns = true

/-- Caller buffers stay. -/
def Ext (w w' : World) : Prop := ∀ b B, w.heap.blk b = some B → B.malloced = false →
  ∃ B', w'.heap.blk b = some B' ∧ B'.malloced = false ∧ B'.len = B.len

theorem Ext.refl (w : World) : Ext w w := fun _ B h1 h2 => ⟨B, h1, h2, rfl⟩

theorem Ext.trans {a b c : World} (h1 : Ext a b) (h2 : Ext b c) : Ext a c := by
  intro k B hk hm
  obtain ⟨B', p, q, r⟩ := h1 k B hk hm
  obtain ⟨B'', p', q', r'⟩ := h2 k B' p q
  exact ⟨B'', p', q', r'.trans r⟩

/-- A call for array `i` touches only array `i` and memory it owns. -/
structure Frame (i : Nat) (w w' : World) : Prop where
  arr : ∀ k, k ≠ i → w'.arr k = w.arr k
  blk : ∀ b, b < w.heap.next → (∀ o, (w.arr i).owns = true → (w.arr i).ptr ≠ some (b, o)) →
    w'.heap.blk b = w.heap.blk b
  nown : ∀ b, b < w.heap.next → (∀ o, (w.arr i).owns = true → (w.arr i).ptr ≠ some (b, o)) →
    (∀ o, (w'.arr i).owns = true → (w'.arr i).ptr ≠ some (b, o))
  next : w.heap.next ≤ w'.heap.next

theorem Frame.refl (i : Nat) (w : World) : Frame i w w := ⟨fun _ _ => rfl, fun _ _ _ => rfl, fun _ _ h => h, le_refl _⟩

theorem Frame.trans {i : Nat} {a b c : World} (h1 : Frame i a b) (h2 : Frame i b c) : Frame i a c := by
  refine ⟨fun k hk => (h2.arr k hk).trans (h1.arr k hk), ?_, ?_, le_trans h1.next h2.next⟩
  · intro k hk hn
    rw [h2.blk k (lt_of_lt_of_le hk h1.next) (h1.nown k hk hn), h1.blk k hk hn]
  · intro k hk hn
    exact h2.nown k (lt_of_lt_of_le hk h1.next) (h1.nown k hk hn)

/-- Bundled conclusion for a call on array `i`. -/
structure Good (i : Nat) (w w' : World) : Prop where
  inv : Inv w'
  ext : Ext w w'
  frame : Frame i w w'

theorem Good.trans {i : Nat} {a b c : World} (h1 : Good i a b) (h2 : Good i b c) : Good i a c :=
  ⟨h2.inv, h1.ext.trans h2.ext, h1.frame.trans h2.frame⟩

theorem Good.refl {i : Nat} {a : World} (h : Inv a) : Good i a a := ⟨h, Ext.refl a, Frame.refl i a⟩

theorem total_le_byteSize (a : Arr) : total a * a.sz ≤ byteSize a := by
  unfold byteSize; split_ifs <;> omega

theorem zeroBytes_le (a : Arr) : zeroBytes a ≤ byteSize a := by
  unfold zeroBytes; split_ifs
  · exact total_le_byteSize a
  · exact le_refl _

theorem detach_good (i : Nat) (w : World) (h : Inv w) :
    ∃ w', detach i w = .ok w' ∧ Good i w w' ∧ (w'.arr i) = { w.arr i with owns := true, ptr := none } := by
  unfold detach
  simp only
  rcases ho : (w.arr i).owns with _ | _
  · -- not owner
    have hr : (match false, (w.arr i).ptr with
        | true, some (b, o) => match w.heap.blk b with
          | some B => if B.malloced = true ∧ o = 0 then
              Res.ok (setBlk (setArr w i { w.arr i with owns := true, ptr := none }) b none) else .ub
          | none => .ub
        | _, _ => .ok (setArr w i { w.arr i with owns := true, ptr := none }))
        = .ok (setArr w i { w.arr i with owns := true, ptr := none }) := by
      cases (w.arr i).ptr <;> rfl
    refine ⟨_, hr, ⟨⟨h.fresh, ?_, ?_, ?_, ?_, ?_⟩, Ext.refl w, ⟨?_, fun _ _ _ => rfl, ?_, le_refl _⟩⟩, ?_⟩
    · intro k b o h1 h2
      by_cases hk : k = i
      · subst hk; simp [setArr] at h2
      · simp only [setArr, Function.update_of_ne hk] at h1 h2 ⊢
        exact h.own k b o h1 h2
    · intro k j b o o' h1 h2 h3 h4
      by_cases hk : k = i
      · subst hk; simp [setArr] at h2
      · by_cases hj : j = i
        · subst hj; simp [setArr] at h4
        · simp only [setArr, Function.update_of_ne hk, Function.update_of_ne hj] at h1 h2 h3 h4
          exact h.uniq k j b o o' h1 h2 h3 h4
    · intro k b o h1 h2
      by_cases hk : k = i
      · subst hk; simp [setArr] at h2
      · simp only [setArr, Function.update_of_ne hk] at h1 h2 ⊢
        exact h.view k b o h1 h2
    · intro b B h1 h2
      obtain ⟨k, o, h3, h4⟩ := h.noleak b B h1 h2
      have hk : k ≠ i := by rintro rfl; rw [ho] at h3; cases h3
      exact ⟨k, o, by simp only [setArr, Function.update_of_ne hk]; exact ⟨h3, h4⟩⟩
    · intro k h1
      by_cases hk : k = i
      · subst hk; simp [setArr]
      · simp only [setArr, Function.update_of_ne hk] at h1 ⊢
        exact h.nul k h1
    · intro k hk; simp [setArr, Function.update_of_ne hk]
    · intro b _ _ o _; simp [setArr]
    · simp [setArr]
  · rcases hp : (w.arr i).ptr with _ | ⟨b, o⟩
    · refine ⟨_, rfl, ?_, by simp [setArr]⟩
      have e : setArr w i { w.arr i with owns := true, ptr := none } = w := by
        have : { w.arr i with owns := true, ptr := none } = w.arr i := by
          rw [← ho, ← hp]
        rw [this]; unfold setArr; rw [Function.update_eq_self]
      rw [e]; exact Good.refl h
    · obtain ⟨e0, B, hb, hm, hl⟩ := h.own i b o ho hp
      simp only [hb]
      rw [if_pos ⟨hm, e0⟩]
      refine ⟨_, rfl, ⟨⟨?_, ?_, ?_, ?_, ?_, ?_⟩, ?_, ⟨?_, ?_, ?_, le_refl _⟩⟩, by simp [setArr, setBlk]⟩
      · intro b' hb'
        simp only [setBlk, setArr] at hb' ⊢
        by_cases hbb : b' = b
        · subst hbb; simp
        · rw [Function.update_of_ne hbb]; exact h.fresh b' hb'
      · intro k b' o' h1 h2
        by_cases hk : k = i
        · subst hk; simp [setArr, setBlk] at h2
        · simp only [setArr, setBlk, Function.update_of_ne hk] at h1 h2 ⊢
          have hbb : b' ≠ b := by
            rintro rfl; exact hk (h.uniq k i b' o' o h1 h2 ho hp)
          rw [Function.update_of_ne hbb]
          exact h.own k b' o' h1 h2
      · intro k j b1 o1 o2 h1 h2 h3 h4
        by_cases hk : k = i
        · subst hk; simp [setArr, setBlk] at h2
        · by_cases hj : j = i
          · subst hj; simp [setArr, setBlk] at h4
          · simp only [setArr, setBlk, Function.update_of_ne hk, Function.update_of_ne hj] at h1 h2 h3 h4
            exact h.uniq k j b1 o1 o2 h1 h2 h3 h4
      · intro k b' o' h1 h2
        by_cases hk : k = i
        · subst hk; simp [setArr, setBlk] at h2
        · simp only [setArr, setBlk, Function.update_of_ne hk] at h1 h2 ⊢
          obtain ⟨B', q1, q2, q3⟩ := h.view k b' o' h1 h2
          have hbb : b' ≠ b := by
            rintro rfl; rw [hb] at q1; injection q1 with q1; rw [q1, q2] at hm; cases hm
          rw [Function.update_of_ne hbb]
          exact ⟨B', q1, q2, q3⟩
      · intro b' B' h1 h2
        simp only [setArr, setBlk] at h1
        by_cases hbb : b' = b
        · subst hbb; simp at h1
        · rw [Function.update_of_ne hbb] at h1
          obtain ⟨k, o', h3, h4⟩ := h.noleak b' B' h1 h2
          have hk : k ≠ i := by
            rintro rfl; rw [hp] at h4; injection h4 with h4; injection h4 with h5 _; exact hbb h5.symm
          exact ⟨k, o', by simp only [setArr, setBlk, Function.update_of_ne hk]; exact ⟨h3, h4⟩⟩
      · intro k h1
        by_cases hk : k = i
        · subst hk; simp [setArr, setBlk]
        · simp only [setArr, setBlk, Function.update_of_ne hk] at h1 ⊢
          exact h.nul k h1
      · intro b' B' h1 h2
        have hbb : b' ≠ b := by
          rintro rfl; rw [hb] at h1; injection h1 with h1; rw [h1, h2] at hm; cases hm
        refine ⟨B', ?_, h2, rfl⟩
        simp only [setArr, setBlk]; rw [Function.update_of_ne hbb]; exact h1
      · intro k hk; simp [setArr, setBlk, Function.update_of_ne hk]
      · intro b' _ hn
        have hbb : b' ≠ b := by
          rintro rfl; exact hn o ho hp
        simp only [setArr, setBlk]; rw [Function.update_of_ne hbb]
      · intro b' _ _ o' _; simp [setArr, setBlk]

theorem mallocFor_good (i : Nat) (w : World) (h : Inv w) (hp : (w.arr i).ptr = none) :
    ∃ w', mallocFor i w = .ok w' ∧ Good i w w' ∧
      w'.arr i = { w.arr i with ptr := some (w.heap.next, 0) } ∧ w'.heap.next = w.heap.next + 1 := by
  have ho := h.nul i hp
  have hfr : ∀ b B, w.heap.blk b = some B → b ≠ w.heap.next := by
    rintro b B h1 rfl; rw [h.fresh _ (le_refl _)] at h1; cases h1
  refine ⟨_, rfl, ⟨⟨?_, ?_, ?_, ?_, ?_, ?_⟩, ?_, ⟨?_, ?_, ?_, Nat.le_succ _⟩⟩, by simp, rfl⟩
  · intro b hb
    simp only at hb ⊢
    rw [Function.update_of_ne (by omega)]; exact h.fresh b (by omega)
  · intro k b o h1 h2
    by_cases hk : k = i
    · subst hk
      simp only [Function.update_self] at h1 h2 ⊢
      injection h2 with h2; injection h2 with h3 h4
      subst h3; subst h4
      exact ⟨rfl, _, Function.update_self .., rfl, rfl⟩
    · simp only [Function.update_of_ne hk] at h1 h2 ⊢
      obtain ⟨e, B, q1, q2, q3⟩ := h.own k b o h1 h2
      rw [Function.update_of_ne (hfr b B q1)]
      exact ⟨e, B, q1, q2, q3⟩
  · intro k j b o o' h1 h2 h3 h4
    by_cases hk : k = i <;> by_cases hj : j = i
    · rw [hk, hj]
    · subst hk
      simp only [Function.update_self, Function.update_of_ne hj] at h2 h3 h4
      injection h2 with h2; injection h2 with h2 _
      obtain ⟨_, B, q1, _⟩ := h.own j b o' h3 h4
      exact absurd h2.symm (hfr b B q1)
    · subst hj
      simp only [Function.update_self, Function.update_of_ne hk] at h1 h2 h4
      injection h4 with h4; injection h4 with h4 _
      obtain ⟨_, B, q1, _⟩ := h.own k b o h1 h2
      exact absurd h4.symm (hfr b B q1)
    · simp only [Function.update_of_ne hk, Function.update_of_ne hj] at h1 h2 h3 h4
      exact h.uniq k j b o o' h1 h2 h3 h4
  · intro k b o h1 h2
    by_cases hk : k = i
    · subst hk
      simp only [Function.update_self] at h1
      rw [ho] at h1; cases h1
    · simp only [Function.update_of_ne hk] at h1 h2 ⊢
      obtain ⟨B, q1, q2, q3⟩ := h.view k b o h1 h2
      rw [Function.update_of_ne (hfr b B q1)]
      exact ⟨B, q1, q2, q3⟩
  · intro b B h1 h2
    simp only at h1
    by_cases hb : b = w.heap.next
    · subst hb
      exact ⟨i, 0, by simp [ho]⟩
    · rw [Function.update_of_ne hb] at h1
      obtain ⟨k, o, h3, h4⟩ := h.noleak b B h1 h2
      have hk : k ≠ i := by rintro rfl; rw [hp] at h4; cases h4
      exact ⟨k, o, by simp only [Function.update_of_ne hk]; exact ⟨h3, h4⟩⟩
  · intro k h1
    by_cases hk : k = i
    · subst hk; simp at h1
    · simp only [Function.update_of_ne hk] at h1 ⊢
      exact h.nul k h1
  · intro b B h1 h2
    refine ⟨B, ?_, h2, rfl⟩
    simp only; rw [Function.update_of_ne (hfr b B h1)]; exact h1
  · intro k hk; simp [Function.update_of_ne hk]
  · intro b hb _
    simp only; rw [Function.update_of_ne (by omega)]
  · intro b hb _ o _ hcon
    simp only [Function.update_self] at hcon
    injection hcon with hcon; injection hcon with hcon _; omega

/-- What `store` does when it is in bounds. -/
theorem store_good (w : World) (h : Inv w) (b o n : Nat) (f : Nat → UInt8) (B : Block)
    (hb : w.heap.blk b = some B) (hn : o + n ≤ B.len) :
    store b o n f w = .ok (setBlk w b (some (patch B o n f))) ∧
    Inv (setBlk w b (some (patch B o n f))) ∧ Ext w (setBlk w b (some (patch B o n f))) := by
  have hlook : ∀ b' B', w.heap.blk b' = some B' → ∃ B'',
      (setBlk w b (some (patch B o n f))).heap.blk b' = some B'' ∧ B''.malloced = B'.malloced ∧ B''.len = B'.len := by
    intro b' B' h1
    simp only [setBlk]
    by_cases hbb : b' = b
    · subst hbb; rw [hb] at h1; injection h1 with h1; subst h1
      exact ⟨_, Function.update_self .., rfl, rfl⟩
    · rw [Function.update_of_ne hbb]; exact ⟨B', h1, rfl, rfl⟩
  have hback : ∀ b' B', (setBlk w b (some (patch B o n f))).heap.blk b' = some B' →
      ∃ B'', w.heap.blk b' = some B'' ∧ B''.malloced = B'.malloced := by
    intro b' B' h1
    simp only [setBlk] at h1
    by_cases hbb : b' = b
    · subst hbb; simp at h1; exact ⟨B, hb, by rw [← h1]; rfl⟩
    · rw [Function.update_of_ne hbb] at h1; exact ⟨B', h1, rfl⟩
  refine ⟨?_, ⟨?_, ?_, h.uniq, ?_, ?_, h.nul⟩, ?_⟩
  · unfold store; simp only [hb, if_pos hn]
  · intro b' hb'
    simp only [setBlk]
    have : b' ≠ b := by rintro rfl; rw [h.fresh _ hb'] at hb; cases hb
    rw [Function.update_of_ne this]; exact h.fresh b' hb'
  · intro k b' o' h1 h2
    obtain ⟨e, B', q1, q2, q3⟩ := h.own k b' o' h1 h2
    obtain ⟨B'', r1, r2, r3⟩ := hlook b' B' q1
    exact ⟨e, B'', r1, by rw [r2, q2], by rw [r3, q3]; rfl⟩
  · intro k b' o' h1 h2
    obtain ⟨B', q1, q2, q3⟩ := h.view k b' o' h1 h2
    obtain ⟨B'', r1, r2, r3⟩ := hlook b' B' q1
    exact ⟨B'', r1, by rw [r2, q2], by rw [r3]; exact q3⟩
  · intro b' B' h1 h2
    obtain ⟨B'', r1, r2⟩ := hback b' B' h1
    exact h.noleak b' B'' r1 (by rw [r2, h2])
  · intro b' B' h1 h2
    obtain ⟨B'', r1, r2, r3⟩ := hlook b' B' h1
    exact ⟨B'', r1, by rw [r2, h2], r3⟩

/-- Room of an attached array. -/
theorem room (w : World) (h : Inv w) (i b o : Nat) (hp : (w.arr i).ptr = some (b, o)) :
    ∃ B, w.heap.blk b = some B ∧ o + byteSize (w.arr i) ≤ B.len := by
  cases ho : (w.arr i).owns with
  | true =>
    obtain ⟨e, B, h1, _, h3⟩ := h.own i b o ho hp
    exact ⟨B, h1, by omega⟩
  | false =>
    obtain ⟨B, h1, _, h3⟩ := h.view i b o ho hp
    exact ⟨B, h1, h3⟩

/-- A block written by an owner is in the frame of that owner. -/
theorem store_frame (w : World) (i b o n : Nat) (f : Nat → UInt8) (B : Block) (ho : (w.arr i).owns = true)
    (hp : (w.arr i).ptr = some (b, o)) : Frame i w (setBlk w b (some (patch B o n f))) := by
  refine ⟨fun _ _ => rfl, ?_, fun _ _ hn => hn, le_refl _⟩
  intro b' _ hn
  have : b' ≠ b := by rintro rfl; exact hn o ho hp
  simp only [setBlk]; rw [Function.update_of_ne this]

theorem zero_owned (i : Nat) (w : World) (h : Inv w) (b o : Nat) (ho : (w.arr i).owns = true)
    (hp : (w.arr i).ptr = some (b, o)) :
    ∃ w', zero i w = .ok w' ∧ Good i w w' ∧ w'.arr = w.arr ∧ w'.heap.next = w.heap.next := by
  obtain ⟨B, hb, hr⟩ := room w h i b o hp
  have hz := zeroBytes_le (w.arr i)
  obtain ⟨s1, s2, s3⟩ := store_good w h b o (zeroBytes (w.arr i)) (fun _ => 0) B hb (by omega)
  refine ⟨_, by unfold zero; rw [hp]; exact s1, ⟨s2, s3, store_frame w i b o _ _ B ho hp⟩, rfl, rfl⟩

/-- Changing the sizes of an unattached array, or the tags of any array. -/
theorem setArr_good (i : Nat) (w : World) (h : Inv w) (a : Arr) (h1 : a.ptr = (w.arr i).ptr)
    (h2 : a.owns = (w.arr i).owns) (h3 : a.ptr = none ∨ byteSize a = byteSize (w.arr i)) :
    Good i w (setArr w i a) := by
  have hp : ∀ k, ((setArr w i a).arr k).ptr = (w.arr k).ptr := by
    intro k; by_cases hk : k = i
    · subst hk; simp [setArr, h1]
    · simp [setArr, Function.update_of_ne hk]
  have ho : ∀ k, ((setArr w i a).arr k).owns = (w.arr k).owns := by
    intro k; by_cases hk : k = i
    · subst hk; simp [setArr, h2]
    · simp [setArr, Function.update_of_ne hk]
  have hb : ∀ k p, (w.arr k).ptr = some p → byteSize ((setArr w i a).arr k) = byteSize (w.arr k) := by
    intro k p hkp; by_cases hk : k = i
    · subst hk
      rcases h3 with h3 | h3
      · rw [← h1, h3] at hkp; cases hkp
      · simp [setArr, h3]
    · simp [setArr, Function.update_of_ne hk]
  refine ⟨⟨h.fresh, ?_, ?_, ?_, ?_, ?_⟩, Ext.refl w, ⟨?_, fun _ _ _ => rfl, ?_, le_refl _⟩⟩
  · intro k b o q1 q2
    rw [ho] at q1; rw [hp] at q2; rw [hb k _ q2]; exact h.own k b o q1 q2
  · intro k j b o o' q1 q2 q3 q4
    rw [ho] at q1 q3; rw [hp] at q2 q4; exact h.uniq k j b o o' q1 q2 q3 q4
  · intro k b o q1 q2
    rw [ho] at q1; rw [hp] at q2; rw [hb k _ q2]; exact h.view k b o q1 q2
  · intro b B q1 q2
    obtain ⟨k, o, r1, r2⟩ := h.noleak b B q1 q2
    exact ⟨k, o, by rw [ho]; exact r1, by rw [hp]; exact r2⟩
  · intro k q; rw [hp] at q; rw [ho]; exact h.nul k q
  · intro k hk; simp [setArr, Function.update_of_ne hk]
  · intro b _ hn o q1 q2
    rw [ho] at q1; rw [hp] at q2; exact hn o q1 q2

/-- `Allocate` on an array that owns its data (or is unattached), with no zero size. -/
theorem allocate_ok (i : Nat) (args : List Nat) (w : World) (h : Inv w) (ho : (w.arr i).owns = true)
    (hs : 0 ∉ fillSizes args (w.arr i).shape) :
    ∃ w' b, allocate i args w = .ok w' ∧ Good i w w' ∧
      w'.arr i = { w.arr i with shape := fillSizes args (w.arr i).shape, ptr := some (b, 0), owns := true } ∧
      ((w.arr i).ptr = none ∨ (w.arr i).shape ≠ fillSizes args (w.arr i).shape → w.heap.next ≤ b) := by
  unfold allocate
  simp only [ho, Bool.true_eq_false, if_false, hs]
  by_cases hc : (w.arr i).ptr = none ∨ (w.arr i).shape ≠ fillSizes args (w.arr i).shape
  · rw [if_pos hc]
    obtain ⟨w1, d1, d2, d3⟩ := detach_good i w h
    rw [d1]
    simp only [Res.bind]
    have g2 := setArr_good i w1 d2.inv { w1.arr i with shape := fillSizes args (w.arr i).shape } rfl rfl
      (Or.inl (by rw [d3]))
    generalize hw2 : setArr w1 i { w1.arr i with shape := fillSizes args (w.arr i).shape } = w2 at *
    have a2 : w2.arr i = { w.arr i with shape := fillSizes args (w.arr i).shape, ptr := none, owns := true } := by
      rw [← hw2]; simp [setArr, d3]
    obtain ⟨w3, m1, m2, m3, m4⟩ := mallocFor_good i w2 g2.inv (by rw [a2])
    rw [m1]
    simp only
    obtain ⟨w4, z1, z2, z3, z4⟩ := zero_owned i w3 m2.inv w2.heap.next 0 (by rw [m3, a2]) (by rw [m3])
    refine ⟨w4, w2.heap.next, z1, ((d2.trans g2).trans m2).trans z2, by rw [z3, m3, a2], ?_⟩
    intro _; exact (d2.trans g2).frame.next
  · rw [if_neg hc]
    rw [not_or, not_not] at hc
    obtain ⟨c1, c2⟩ := hc
    obtain ⟨⟨b, o⟩, hp⟩ := Option.ne_none_iff_exists'.mp c1
    have e0 := (h.own i b o ho hp).1
    obtain ⟨w4, z1, z2, z3, z4⟩ := zero_owned i w h b o ho hp
    refine ⟨w4, b, z1, z2, ?_, ?_⟩
    · rw [z3, ← c2, ← ho]
      rw [← e0, ← hp]
    · intro hcon; rcases hcon with hcon | hcon
      · exact absurd hcon c1
      · exact absurd c2 hcon

/-- Results that are not undefined and satisfy `P`. -/
def Safe (P : World → Prop) : Res → Prop
  | .ok w => P w
  | .exc w => P w
  | .ub => False

theorem Safe.bind {P Q : World → Prop} {r : Res} {f : World → Res} (h : Safe P r) (hPQ : ∀ w, P w → Q w)
    (hf : ∀ w, r = .ok w → P w → Safe Q (f w)) : Safe Q (r.bind f) := by
  cases r with
  | ok w => exact hf w rfl h
  | exc w => exact hPQ w h
  | ub => exact h

/-- Outcome of a (re)allocation of array `d`. -/
def ASafe (d : Nat) (w : World) : Res → Prop
  | .ok w' => Good d w w' ∧ (w'.arr d).sz = (w.arr d).sz ∧ (w'.arr d).ptr ≠ none
  | .exc w' => Good d w w' ∧ (w'.arr d).sz = (w.arr d).sz
  | .ub => False

theorem allocate_safe (i : Nat) (args : List Nat) (w : World) (h : Inv w) : ASafe i w (allocate i args w) := by
  by_cases ho : (w.arr i).owns = true
  · by_cases hs : 0 ∈ fillSizes args (w.arr i).shape
    · unfold allocate; simp only [ho, Bool.true_eq_false, if_false, hs, if_true]
      exact ⟨Good.refl h, rfl⟩
    · obtain ⟨w', b, e, g, a, _⟩ := allocate_ok i args w h ho hs
      rw [e]; exact ⟨g, by rw [a], by rw [a]; simp⟩
  · unfold allocate; simp only [Bool.not_eq_true] at ho; simp only [ho, if_true]; exact ⟨Good.refl h, rfl⟩

theorem deallocate_safe (i : Nat) (w : World) (h : Inv w) :
    Safe (fun w' => Good i w w' ∧ (w'.arr i).sz = (w.arr i).sz) (deallocate i w) := by
  unfold deallocate
  split_ifs
  · exact ⟨Good.refl h, rfl⟩
  · obtain ⟨w', e, g, a⟩ := detach_good i w h
    rw [e]; exact ⟨g, by rw [a]⟩

theorem realloc_safe (d s : Nat) (w : World) (h : Inv w) : ASafe d w (realloc d s w) := by
  unfold realloc
  have h1 := deallocate_safe d w h
  cases hd : deallocate d w with
  | ub => rw [hd] at h1; exact h1
  | exc w1 => rw [hd] at h1; exact h1
  | ok w1 =>
    rw [hd] at h1
    obtain ⟨g1, a1⟩ := h1
    have := allocate_safe d (w1.arr s).shape w1 g1.inv
    simp only [Res.bind]
    cases hr : allocate d (w1.arr s).shape w1 with
    | ok w2 => rw [hr] at this; exact ⟨g1.trans this.1, this.2.1.trans a1, this.2.2⟩
    | exc w2 => rw [hr] at this; exact ⟨g1.trans this.1, this.2.trans a1⟩
    | ub => rw [hr] at this; exact this

theorem copyTags_good (d s : Nat) (w : World) (h : Inv w) :
    ∃ w', copyTags d s w = .ok w' ∧ Good d w w' ∧
      w'.arr d = { w.arr d with typ := (w.arr s).typ, loc := (w.arr s).loc } := by
  refine ⟨_, rfl, setArr_good d w h _ rfl rfl (Or.inr rfl), by simp [setArr]⟩

theorem assignAlloc_safe (d s : Nat) (w : World) (h : Inv w) : ASafe d w (assignAlloc d s w) := by
  unfold assignAlloc
  split_ifs with hp
  · have h1 := allocate_safe d (w.arr s).shape w h
    cases hr : allocate d (w.arr s).shape w with
    | ub => rw [hr] at h1; exact h1
    | exc w1 => rw [hr] at h1; exact h1
    | ok w1 =>
      rw [hr] at h1
      simp only [Res.bind]
      obtain ⟨w2, t1, t2, t3⟩ := copyTags_good d s w1 h1.1.inv
      rw [t1]
      exact ⟨h1.1.trans t2, by rw [t3]; exact h1.2.1, by rw [t3]; exact h1.2.2⟩
  · exact ⟨Good.refl h, rfl, hp⟩

theorem assignRealloc_safe (d s : Nat) (w : World) (h : Inv w) (hp : (w.arr d).ptr ≠ none) :
    ASafe d w (assignRealloc d s w) := by
  unfold assignRealloc
  split_ifs with hc hs
  all_goals try exact ⟨Good.refl h, rfl, hp⟩
  · have h1 := realloc_safe d s w h
    cases hr : realloc d s w with
    | ub => rw [hr] at h1; exact h1
    | exc w1 => rw [hr] at h1; exact h1
    | ok w1 =>
      rw [hr] at h1
      obtain ⟨g1, z1, p1⟩ := h1
      simp only [Res.bind]
      have h2 : ASafe d w1 (if (w1.arr d).shape.length = 2 then realloc d s w1 else .ok w1) := by
        split_ifs
        · exact realloc_safe d s w1 g1.inv
        · exact ⟨Good.refl g1.inv, rfl, p1⟩
      cases hr2 : (if (w1.arr d).shape.length = 2 then realloc d s w1 else Res.ok w1) with
      | ub => rw [hr2] at h2; exact h2
      | exc w2 => rw [hr2] at h2; exact ⟨g1.trans h2.1, h2.2.trans z1⟩
      | ok w2 =>
        rw [hr2] at h2
        obtain ⟨w3, t1, t2, t3⟩ := copyTags_good d s w2 h2.1.inv
        simp only [t1]
        exact ⟨(g1.trans h2.1).trans t2, by rw [t3]; exact h2.2.1.trans z1, by rw [t3]; exact h2.2.2⟩
  · simp only [Res.bind]
    have h2 : ASafe d w (if (w.arr d).shape.length = 2 then realloc d s w else .ok w) := by
      split_ifs
      · exact realloc_safe d s w h
      · exact ⟨Good.refl h, rfl, hp⟩
    cases hr2 : (if (w.arr d).shape.length = 2 then realloc d s w else Res.ok w) with
    | ub => rw [hr2] at h2; exact h2
    | exc w2 => rw [hr2] at h2; exact h2
    | ok w2 =>
      rw [hr2] at h2
      obtain ⟨w3, t1, t2, t3⟩ := copyTags_good d s w2 h2.1.inv
      simp only [t1]
      exact ⟨h2.1.trans t2, by rw [t3]; exact h2.2.1, by rw [t3]; exact h2.2.2⟩

theorem byteSize_congr (a b : Arr) (h1 : a.shape = b.shape) (h2 : a.sz = b.sz) : byteSize a = byteSize b := by
  unfold byteSize total; rw [h1, h2]

/-- Two attached arrays, the first owning, share a block only if they are the same array. -/
theorem owned_apart (w : World) (h : Inv w) (d s b b' o o' : Nat) (ho : (w.arr d).owns = true)
    (hd : (w.arr d).ptr = some (b, o)) (hs : (w.arr s).ptr = some (b', o')) (hne : d ≠ s) : b ≠ b' := by
  rintro rfl
  cases hos : (w.arr s).owns with
  | true => exact hne (h.uniq d s b o o' ho hd hos hs)
  | false =>
    obtain ⟨B, q1, q2, _⟩ := h.view s b o' hos hs
    obtain ⟨_, B', r1, r2, _⟩ := h.own d b o ho hd
    rw [q1] at r1; injection r1 with r1; rw [r1, r2] at q2; cases q2

theorem copyBytes_ok (d s : Nat) (w : World) (h : Inv w) (b o b' o' : Nat)
    (hd : (w.arr d).ptr = some (b, o)) (hs : (w.arr s).ptr = some (b', o'))
    (hbs : byteSize (w.arr d) = byteSize (w.arr s))
    (hov : b ≠ b' ∨ o = o' ∨ o + byteSize (w.arr d) ≤ o' ∨ o' + byteSize (w.arr d) ≤ o) :
    ∃ B B', w.heap.blk b = some B ∧ w.heap.blk b' = some B' ∧
      copyBytes d s w = .ok (setBlk w b (some (patch B o (byteSize (w.arr d)) (fun k => B'.dat (o' + k))))) ∧
      Inv (setBlk w b (some (patch B o (byteSize (w.arr d)) (fun k => B'.dat (o' + k))))) ∧
      Ext w (setBlk w b (some (patch B o (byteSize (w.arr d)) (fun k => B'.dat (o' + k))))) := by
  obtain ⟨B, hb, r1⟩ := room w h d b o hd
  obtain ⟨B', hb', r2⟩ := room w h s b' o' hs
  obtain ⟨s1, s2, s3⟩ := store_good w h b o (byteSize (w.arr d)) (fun k => B'.dat (o' + k)) B hb r1
  refine ⟨B, B', hb, hb', ?_, s2, s3⟩
  unfold copyBytes
  rw [hd, hs]
  simp only [hb']
  rw [if_pos ⟨by omega, hov⟩, s1]

theorem assign_safe (d s : Nat) (w : World) (h : Inv w) (hop : OpOk w (.assign d s)) :
    Safe (fun w' => Inv w' ∧ Ext w w') (assign d s w) := by
  obtain ⟨_, hsz, hov⟩ := hop
  unfold assign
  split_ifs with hs hd
  · have g := setArr_good d w h { w.arr d with shape := (w.arr s).shape, typ := (w.arr s).typ, loc := (w.arr s).loc }
      rfl rfl (Or.inl hd)
    exact ⟨g.inv, g.ext⟩
  · exact ⟨h, Ext.refl w⟩
  · have h1 := assignAlloc_safe d s w h
    cases hr1 : assignAlloc d s w with
    | ub => rw [hr1] at h1; exact h1
    | exc w1 => rw [hr1] at h1; exact ⟨h1.1.inv, h1.1.ext⟩
    | ok w1 =>
      rw [hr1] at h1
      obtain ⟨g1, z1, p1⟩ := h1
      simp only [Res.bind]
      have h2 := assignRealloc_safe d s w1 g1.inv p1
      cases hr2 : assignRealloc d s w1 with
      | ub => rw [hr2] at h2; exact h2
      | exc w2 => rw [hr2] at h2; exact ⟨(g1.trans h2.1).inv, (g1.trans h2.1).ext⟩
      | ok w2 =>
        rw [hr2] at h2
        obtain ⟨g2, z2, p2⟩ := h2
        have g := g1.trans g2
        simp only
        unfold checkAndCopy
        split_ifs with c1 c2 c3
        · exact ⟨g.inv, g.ext⟩
        · exact ⟨g.inv, g.ext⟩
        · exact ⟨g.inv, g.ext⟩
        · have hs2 : (w2.arr s).ptr ≠ none := by
            by_cases hds : s = d
            · rw [hds]; exact p2
            · rw [g.frame.arr s hds]; exact hs
          have hsz2 : (w2.arr d).sz = (w2.arr s).sz := by
            by_cases hds : s = d
            · rw [hds]
            · rw [g.frame.arr s hds, z2, z1, hsz]
          obtain ⟨⟨b, o⟩, hbd⟩ := Option.ne_none_iff_exists'.mp p2
          obtain ⟨⟨b', o'⟩, hbs⟩ := Option.ne_none_iff_exists'.mp hs2
          have hcond : b ≠ b' ∨ o = o' ∨ o + byteSize (w2.arr d) ≤ o' ∨ o' + byteSize (w2.arr d) ≤ o := by
            by_cases hds : s = d
            · subst hds; rw [hbd] at hbs; injection hbs with hbs; injection hbs with _ e; exact Or.inr (Or.inl e)
            cases ho : (w2.arr d).owns with
            | true => exact Or.inl (owned_apart w2 g.inv d s b b' o o' ho hbd hbs (Ne.symm hds))
            | false =>
              -- nothing was reallocated
              have e2 : w2 = w1 := by
                by_cases hc : (w1.arr d).ptr ≠ none ∧ (w1.arr d).owns = true
                · exfalso
                  have : ∀ r : Res, (∀ w', r = .ok w' → Inv w' ∧ (w'.arr d).ptr ≠ none ∧ (w'.arr d).owns = true) →
                      r.bind (copyTags d s) = .ok w2 → (w2.arr d).owns = true := by
                    intro r hr hr'
                    cases r with
                    | ok w' =>
                      simp only [Res.bind, copyTags, Res.ok.injEq] at hr'
                      rw [← hr']; simp [setArr, (hr w' rfl).2.2]
                    | exc w' => simp [Res.bind] at hr'
                    | ub => simp [Res.bind] at hr'
                  have hre : ∀ w w', Inv w → realloc d s w = .ok w' →
                      Inv w' ∧ (w'.arr d).ptr ≠ none ∧ (w'.arr d).owns = true := by
                    intro v v' hv hvv
                    have hs := realloc_safe d s v hv
                    rw [hvv] at hs
                    refine ⟨hs.1.inv, hs.2.2, ?_⟩
                    unfold realloc at hvv
                    have h1 := deallocate_safe d v hv
                    cases hd1 : deallocate d v with
                    | ub => rw [hd1] at hvv; simp [Res.bind] at hvv
                    | exc u => rw [hd1] at hvv; simp [Res.bind] at hvv
                    | ok u =>
                      rw [hd1] at hvv h1
                      simp only [Res.bind] at hvv
                      by_cases hou : (u.arr d).owns = true
                      · by_cases hz : 0 ∈ fillSizes (u.arr s).shape (u.arr d).shape
                        · unfold allocate at hvv; simp [hou, hz] at hvv
                        · obtain ⟨w', b, e, _, a, _⟩ := allocate_ok d (u.arr s).shape u h1.1.inv hou hz
                          rw [e] at hvv; injection hvv with hvv; rw [← hvv, a]
                      · unfold allocate at hvv; simp [hou] at hvv
                  unfold assignRealloc at hr2
                  rw [if_pos hc] at hr2
                  by_cases hsh : (w1.arr d).shape ≠ (w1.arr s).shape
                  · rw [if_pos hsh] at hr2
                    cases hra : realloc d s w1 with
                    | ub => rw [hra] at hr2; simp [Res.bind] at hr2
                    | exc u => rw [hra] at hr2; simp [Res.bind] at hr2
                    | ok u =>
                      rw [hra] at hr2
                      simp only [Res.bind] at hr2
                      have hu := hre w1 u g1.inv hra
                      have := this _ (by
                        intro w' hw'
                        split_ifs at hw'
                        · exact hre u w' hu.1 hw'
                        · simp only [Res.ok.injEq] at hw'; rw [← hw']; exact hu) hr2
                      rw [this] at ho; cases ho
                  · rw [if_neg hsh] at hr2
                    simp only [Res.bind] at hr2
                    have := this _ (by
                        intro w' hw'
                        split_ifs at hw'
                        · exact hre w1 w' g1.inv hw'
                        · simp only [Res.ok.injEq] at hw'; rw [← hw']; exact ⟨g1.inv, hc⟩) hr2
                    rw [this] at ho; cases ho
                · unfold assignRealloc at hr2; rw [if_neg hc] at hr2
                  simp only [Res.ok.injEq] at hr2; exact hr2.symm
              subst e2
              have e1 : w2 = w := by
                unfold assignAlloc at hr1
                split_ifs at hr1 with hc
                · exfalso
                  by_cases hz : 0 ∈ fillSizes (w.arr s).shape (w.arr d).shape
                  · unfold allocate at hr1; simp [h.nul d hc, hz, Res.bind] at hr1
                  · obtain ⟨w', b, e, _, a, _⟩ := allocate_ok d (w.arr s).shape w h (h.nul d hc) hz
                    rw [e] at hr1
                    simp only [Res.bind, copyTags, Res.ok.injEq] at hr1
                    rw [← hr1] at ho; simp [setArr, a] at ho
                · simp only [Res.ok.injEq] at hr1; exact hr1.symm
              subst e1
              by_cases hbb : b = b'
              · subst hbb; exact Or.inr (hov b o o' hbd hbs)
              · exact Or.inl hbb
          obtain ⟨B, B', _, _, q1, q2, q3⟩ := copyBytes_ok d s w2 g.inv b o b' o' hbd hbs
            (byteSize_congr _ _ ((not_not.mp c1).symm) hsz2) hcond
          rw [q1]; exact ⟨q2, g.ext.trans q3⟩

/-! Linear offsets. -/

theorem mix_lt {a b i j : Nat} (hi : i < a) (hj : j < b) : i * b + j < a * b := by
  calc i * b + j < i * b + b := by omega
    _ = (i + 1) * b := by ring
    _ ≤ a * b := Nat.mul_le_mul_right b hi

theorem mix_inj {b i j i' j' : Nat} (hj : j < b) (hj' : j' < b) (h : i * b + j = i' * b + j') : i = i' ∧ j = j' := by
  have h1 : (i * b + j) / b = i := by
    rw [Nat.mul_comm, Nat.mul_add_div (by omega), Nat.div_eq_of_lt hj]; omega
  have h2 : (i' * b + j') / b = i' := by
    rw [Nat.mul_comm, Nat.mul_add_div (by omega), Nat.div_eq_of_lt hj']; omega
  have : i = i' := by rw [← h1, ← h2, h]
  subst this; exact ⟨rfl, by omega⟩

theorem assoc3 (i j k s1 s2 : Nat) : i * s1 * s2 + j * s2 + k = (i * s1 + j) * s2 + k := by ring
theorem assoc4 (i j k l s1 s2 s3 : Nat) :
    i * s1 * s2 * s3 + j * s2 * s3 + k * s3 + l = ((i * s1 + j) * s2 + k) * s3 + l := by ring

/-- An array shape of one of the four classes. -/
theorem shape_cases (shape : List Nat) (h1 : 1 ≤ shape.length) (h2 : shape.length ≤ 4) :
    (∃ a, shape = [a]) ∨ (∃ a b, shape = [a, b]) ∨ (∃ a b c, shape = [a, b, c]) ∨ (∃ a b c d, shape = [a, b, c, d]) := by
  match shape, h1, h2 with
  | [a], _, _ => exact Or.inl ⟨a, rfl⟩
  | [a, b], _, _ => exact Or.inr (Or.inl ⟨a, b, rfl⟩)
  | [a, b, c], _, _ => exact Or.inr (Or.inr (Or.inl ⟨a, b, c, rfl⟩))
  | [a, b, c, d], _, _ => exact Or.inr (Or.inr (Or.inr ⟨a, b, c, d, rfl⟩))
  | _ :: _ :: _ :: _ :: _ :: _, _, h => simp at h

theorem linear_lt (shape idx : List Nat) (h1 : 1 ≤ shape.length) (h2 : shape.length ≤ 4)
    (h : List.Forall₂ (· < ·) idx shape) : ∃ k, linear shape idx = some k ∧ k < shape.prod := by
  rcases shape_cases shape h1 h2 with ⟨a, rfl⟩ | ⟨a, b, rfl⟩ | ⟨a, b, c, rfl⟩ | ⟨a, b, c, d, rfl⟩
  · rcases h with _ | ⟨hi, _ | _⟩
    exact ⟨_, rfl, by simpa using hi⟩
  · rcases h with _ | ⟨hi, _ | ⟨hj, _ | _⟩⟩
    refine ⟨_, rfl, ?_⟩
    have := mix_lt hi hj
    simpa using this
  · rcases h with _ | ⟨hi, _ | ⟨hj, _ | ⟨hk, _ | _⟩⟩⟩
    refine ⟨_, rfl, ?_⟩
    have := mix_lt (mix_lt hi hj) hk
    rw [assoc3]; simpa [Nat.mul_assoc] using this
  · rcases h with _ | ⟨hi, _ | ⟨hj, _ | ⟨hk, _ | ⟨hl, _ | _⟩⟩⟩⟩
    refine ⟨_, rfl, ?_⟩
    have := mix_lt (mix_lt (mix_lt hi hj) hk) hl
    rw [assoc4]; simpa [Nat.mul_assoc] using this

theorem linear_inj (shape idx idx' : List Nat) (h1 : 1 ≤ shape.length) (h2 : shape.length ≤ 4)
    (h : List.Forall₂ (· < ·) idx shape) (h' : List.Forall₂ (· < ·) idx' shape)
    (he : linear shape idx = linear shape idx') : idx = idx' := by
  rcases shape_cases shape h1 h2 with ⟨a, rfl⟩ | ⟨a, b, rfl⟩ | ⟨a, b, c, rfl⟩ | ⟨a, b, c, d, rfl⟩
  · rcases h with _ | ⟨hi, _ | _⟩
    rcases h' with _ | ⟨hi', _ | _⟩
    simp only [linear, Option.some.injEq] at he
    rw [he]
  · rcases h with _ | ⟨hi, _ | ⟨hj, _ | _⟩⟩
    rcases h' with _ | ⟨hi', _ | ⟨hj', _ | _⟩⟩
    simp only [linear, Option.some.injEq] at he
    obtain ⟨e1, e2⟩ := mix_inj hj hj' he
    rw [e1, e2]
  · rcases h with _ | ⟨hi, _ | ⟨hj, _ | ⟨hk, _ | _⟩⟩⟩
    rcases h' with _ | ⟨hi', _ | ⟨hj', _ | ⟨hk', _ | _⟩⟩⟩
    simp only [linear, Option.some.injEq, assoc3] at he
    obtain ⟨e1, e2⟩ := mix_inj hk hk' he
    obtain ⟨e3, e4⟩ := mix_inj hj hj' e1
    rw [e2, e3, e4]
  · rcases h with _ | ⟨hi, _ | ⟨hj, _ | ⟨hk, _ | ⟨hl, _ | _⟩⟩⟩⟩
    rcases h' with _ | ⟨hi', _ | ⟨hj', _ | ⟨hk', _ | ⟨hl', _ | _⟩⟩⟩⟩
    simp only [linear, Option.some.injEq, assoc4] at he
    obtain ⟨e1, e2⟩ := mix_inj hl hl' he
    obtain ⟨e3, e4⟩ := mix_inj hk hk' e1
    obtain ⟨e5, e6⟩ := mix_inj hj hj' e3
    rw [e2, e4, e5, e6]

theorem unmix {a b k : Nat} (h : k < a * b) : ∃ i j, i < a ∧ j < b ∧ k = i * b + j := by
  have hb : 0 < b := by
    rcases Nat.eq_zero_or_pos b with h0 | h0
    · subst h0; simp at h
    · exact h0
  exact ⟨k / b, k % b, by rw [Nat.div_lt_iff_lt_mul hb]; exact h, Nat.mod_lt _ hb, by
    rw [Nat.mul_comm]; exact (Nat.div_add_mod k b).symm⟩

theorem linear_surj (shape : List Nat) (h1 : 1 ≤ shape.length) (h2 : shape.length ≤ 4) (k : Nat)
    (hk : k < shape.prod) : ∃ idx, List.Forall₂ (· < ·) idx shape ∧ linear shape idx = some k := by
  rcases shape_cases shape h1 h2 with ⟨a, rfl⟩ | ⟨a, b, rfl⟩ | ⟨a, b, c, rfl⟩ | ⟨a, b, c, d, rfl⟩
  · exact ⟨[k], by simpa using hk, rfl⟩
  · obtain ⟨i, j, hi, hj, e⟩ := unmix (a := a) (b := b) (by simpa using hk)
    exact ⟨[i, j], by simp [hi, hj], by rw [e]; rfl⟩
  · obtain ⟨p, l, hp, hl, e⟩ := unmix (a := a * b) (b := c) (by simpa [Nat.mul_assoc] using hk)
    obtain ⟨i, j, hi, hj, e'⟩ := unmix hp
    exact ⟨[i, j, l], by simp [hi, hj, hl], by rw [e, e']; simp only [linear, assoc3]⟩
  · obtain ⟨q, m, hq, hm, e⟩ := unmix (a := a * b * c) (b := d) (by simpa [Nat.mul_assoc] using hk)
    obtain ⟨p, l, hp, hl, e''⟩ := unmix hq
    obtain ⟨i, j, hi, hj, e'⟩ := unmix hp
    exact ⟨[i, j, l, m], by simp [hi, hj, hl, hm], by rw [e, e'', e']; simp only [linear, assoc4]⟩

theorem write_ok (i : Nat) (idx : List Nat) (v : Nat → UInt8) (w : World) (h : Inv w) (b o : Nat)
    (hp : (w.arr i).ptr = some (b, o)) (d1 : 1 ≤ (w.arr i).shape.length) (d2 : (w.arr i).shape.length ≤ 4)
    (hidx : List.Forall₂ (· < ·) idx (w.arr i).shape) :
    ∃ B k, w.heap.blk b = some B ∧ linear (w.arr i).shape idx = some k ∧ k < (w.arr i).shape.prod ∧
      o + (k + 1) * (w.arr i).sz ≤ B.len ∧
      writeElem i idx v w = .ok (setBlk w b (some (patch B (o + k * (w.arr i).sz) (w.arr i).sz v))) ∧
      Inv (setBlk w b (some (patch B (o + k * (w.arr i).sz) (w.arr i).sz v))) ∧
      Ext w (setBlk w b (some (patch B (o + k * (w.arr i).sz) (w.arr i).sz v))) := by
  obtain ⟨k, k1, k2⟩ := linear_lt _ idx d1 d2 hidx
  obtain ⟨B, hb, hr⟩ := room w h i b o hp
  have ht := total_le_byteSize (w.arr i)
  have hm : (k + 1) * (w.arr i).sz ≤ total (w.arr i) * (w.arr i).sz := Nat.mul_le_mul_right _ k2
  have hx : (k + 1) * (w.arr i).sz = k * (w.arr i).sz + (w.arr i).sz := by ring
  obtain ⟨s1, s2, s3⟩ := store_good w h b (o + k * (w.arr i).sz) (w.arr i).sz v B hb (by omega)
  exact ⟨B, k, hb, k1, k2, by omega, by unfold writeElem; rw [hp, k1]; exact s1, s2, s3⟩

theorem fillSizes_nonzero (a b : List Nat) (h : a.length = b.length) (hz : 0 ∉ a) : fillSizes a b = a := by
  induction a generalizing b with
  | nil => rfl
  | cons x xs ih =>
    cases b with
    | nil => simp at h
    | cons y ys =>
      simp only [List.mem_cons, not_or] at hz
      simp only [List.length_cons, Nat.add_right_cancel_iff] at h
      have := ih ys h hz.2
      unfold fillSizes at *
      rw [List.zipWith_cons_cons, this, if_neg (Ne.symm hz.1)]

/-- Every permitted call is safe and keeps the invariant. -/
theorem step_safe (op : Op) (w : World) (h : Inv w) (hop : OpOk w op) :
    Safe (fun w' => Inv w' ∧ Ext w w') (step op w) := by
  cases op with
  | allocate i args =>
    have := allocate_safe i args w h
    simp only [step]
    cases hr : allocate i args w with
    | ok w' => rw [hr] at this; exact ⟨this.1.inv, this.1.ext⟩
    | exc w' => rw [hr] at this; exact ⟨this.1.inv, this.1.ext⟩
    | ub => rw [hr] at this; exact this
  | setSize i s =>
    simp only [step, setSize]
    split_ifs with hp
    · exact ⟨h, Ext.refl w⟩
    · have g := setArr_good i w h { w.arr i with shape := s } rfl rfl (Or.inl (not_not.mp hp))
      exact ⟨g.inv, g.ext⟩
  | attach i b o =>
    simp only [step, attach]
    split_ifs with hp
    · exact ⟨h, Ext.refl w⟩
    · obtain ⟨B, hb, hm, hl⟩ := hop
      have hp' := not_not.mp hp
      refine ⟨⟨h.fresh, ?_, ?_, ?_, ?_, ?_⟩, Ext.refl w⟩
      · intro k b' o' h1 h2
        by_cases hk : k = i
        · subst hk; simp [setArr] at h1
        · simp only [setArr, Function.update_of_ne hk] at h1 h2 ⊢
          exact h.own k b' o' h1 h2
      · intro k j b' o1 o2 h1 h2 h3 h4
        by_cases hk : k = i
        · subst hk; simp [setArr] at h1
        · by_cases hj : j = i
          · subst hj; simp [setArr] at h3
          · simp only [setArr, Function.update_of_ne hk, Function.update_of_ne hj] at h1 h2 h3 h4
            exact h.uniq k j b' o1 o2 h1 h2 h3 h4
      · intro k b' o' h1 h2
        by_cases hk : k = i
        · subst hk
          simp only [setArr, Function.update_self, Option.some.injEq, Prod.mk.injEq] at h2 ⊢
          obtain ⟨rfl, rfl⟩ := h2
          exact ⟨B, hb, hm, hl⟩
        · simp only [setArr, Function.update_of_ne hk] at h1 h2 ⊢
          exact h.view k b' o' h1 h2
      · intro b' B' h1 h2
        obtain ⟨k, o', h3, h4⟩ := h.noleak b' B' h1 h2
        have hk : k ≠ i := by rintro rfl; rw [hp'] at h4; cases h4
        exact ⟨k, o', by simp only [setArr, Function.update_of_ne hk]; exact ⟨h3, h4⟩⟩
      · intro k h1
        by_cases hk : k = i
        · subst hk; simp [setArr] at h1
        · simp only [setArr, Function.update_of_ne hk] at h1 ⊢
          exact h.nul k h1
  | detach i =>
    obtain ⟨w', e, g, _⟩ := detach_good i w h
    simp only [step]; rw [e]; exact ⟨g.inv, g.ext⟩
  | deallocate i =>
    have := deallocate_safe i w h
    simp only [step]
    cases hr : deallocate i w with
    | ok w' => rw [hr] at this; exact ⟨this.1.inv, this.1.ext⟩
    | exc w' => rw [hr] at this; exact ⟨this.1.inv, this.1.ext⟩
    | ub => rw [hr] at this; exact this
  | zero i =>
    simp only [step]
    cases hp : (w.arr i).ptr with
    | none => unfold zero; rw [hp]; exact ⟨h, Ext.refl w⟩
    | some p =>
      obtain ⟨b, o⟩ := p
      obtain ⟨B, hb, hr⟩ := room w h i b o hp
      have hz := zeroBytes_le (w.arr i)
      obtain ⟨s1, s2, s3⟩ := store_good w h b o (zeroBytes (w.arr i)) (fun _ => 0) B hb (by omega)
      unfold zero; rw [hp]; simp only; rw [s1]; exact ⟨s2, s3⟩
  | assign d s => exact assign_safe d s w h hop
  | write i idx v =>
    obtain ⟨hp, d1, d2, hidx⟩ := hop
    obtain ⟨⟨b, o⟩, hp'⟩ := Option.ne_none_iff_exists'.mp hp
    obtain ⟨B, k, _, _, _, _, e, q1, q2⟩ := write_ok i idx v w h b o hp' d1 d2 hidx
    simp only [step]; rw [e]; exact ⟨q1, q2⟩

theorem runOps_safe (ops : List Op) (w : World) (h : Inv w) (hop : OpsOk w ops) :
    ∃ w', runOps ops w = .ok w' ∧ Inv w' ∧ Ext w w' := by
  induction ops generalizing w with
  | nil => exact ⟨w, rfl, h, Ext.refl w⟩
  | cons op ops ih =>
    obtain ⟨h1, h2⟩ := hop
    have hs := step_safe op w h h1
    simp only [runOps]
    cases hr : step op w with
    | ok w1 =>
      rw [hr] at hs h2
      obtain ⟨w', e, i, x⟩ := ih w1 hs.1 h2
      exact ⟨w', e, i, hs.2.trans x⟩
    | exc w1 =>
      rw [hr] at hs h2
      obtain ⟨w', e, i, x⟩ := ih w1 hs.1 h2
      exact ⟨w', e, i, hs.2.trans x⟩
    | ub => rw [hr] at hs; exact hs.elim

theorem start_inv (w : World) (h : Start w) : Inv w := by
  refine ⟨h.fresh, ?_, ?_, ?_, ?_, fun i _ => (h.null i).2⟩
  · intro i b o _ h2; rw [(h.null i).1] at h2; cases h2
  · intro i j b o o' _ h2; rw [(h.null i).1] at h2; cases h2
  · intro i b o _ h2; rw [(h.null i).1] at h2; cases h2
  · intro b B h1 h2; rw [h.ext b B h1] at h2; cases h2

theorem reach_inv (w : World) (h : Reachable w) : Inv w := by
  obtain ⟨w0, ops, h0, h1, h2⟩ := h
  obtain ⟨w', e, i, _⟩ := runOps_safe ops w0 (start_inv w0 h0) h1
  rw [e] at h2; injection h2 with h2; rw [← h2]; exact i

/-! Assignment. -/

theorem realloc_ok (d s : Nat) (w : World) (h : Inv w) (ho : (w.arr d).owns = true)
    (hl : (w.arr d).shape.length = (w.arr s).shape.length) (hz : 0 ∉ (w.arr s).shape) :
    ∃ w' b, realloc d s w = .ok w' ∧ Good d w w' ∧
      w'.arr d = { w.arr d with shape := (w.arr s).shape, ptr := some (b, 0), owns := true } := by
  unfold realloc deallocate
  rw [if_neg (by rw [ho]; simp)]
  obtain ⟨w1, d1, d2, d3⟩ := detach_good d w h
  rw [d1]
  simp only [Res.bind]
  have es : (w1.arr s).shape = (w.arr s).shape := by
    by_cases hds : s = d
    · rw [hds, d3]
    · rw [d2.frame.arr s hds]
  have ed : (w1.arr d).shape = (w.arr d).shape := by rw [d3]
  rw [es]
  have hf : fillSizes (w.arr s).shape (w1.arr d).shape = (w.arr s).shape :=
    fillSizes_nonzero _ _ (by rw [ed, hl]) hz
  obtain ⟨w2, b, a1, a2, a3, _⟩ := allocate_ok d (w.arr s).shape w1 d2.inv (by rw [d3]) (by rw [hf]; exact hz)
  refine ⟨w2, b, a1, d2.trans a2, ?_⟩
  rw [a3, hf, d3]

/-- After the (re)allocation phase an owning destination has the source's shape and tags. -/
theorem assign_prepare (d s : Nat) (w : World) (h : Inv w) (hs : (w.arr s).ptr ≠ none)
    (ho : (w.arr d).owns = true) (hl : (w.arr d).shape.length = (w.arr s).shape.length)
    (hz : 0 ∉ (w.arr s).shape) (hne : d ≠ s) :
    ∃ w2 b, assign d s w = checkAndCopy d s w2 ∧ Good d w w2 ∧
      w2.arr d = { w.arr d with shape := (w.arr s).shape, ptr := some (b, 0), owns := true,
                                typ := (w.arr s).typ, loc := (w.arr s).loc } := by
  -- phase 1
  have p1 : ∃ w1 b, assignAlloc d s w = .ok w1 ∧ Good d w w1 ∧ (w1.arr d).owns = true ∧
      (w1.arr d).ptr = some (b, 0) ∧ (w1.arr d).sz = (w.arr d).sz ∧
      (w1.arr d).shape.length = (w.arr s).shape.length := by
    unfold assignAlloc
    split_ifs with hp
    · have hf : fillSizes (w.arr s).shape (w.arr d).shape = (w.arr s).shape := fillSizes_nonzero _ _ hl.symm hz
      obtain ⟨w1, b, a1, a2, a3, _⟩ := allocate_ok d (w.arr s).shape w h ho (by rw [hf]; exact hz)
      rw [a1]
      simp only [Res.bind]
      obtain ⟨w2, t1, t2, t3⟩ := copyTags_good d s w1 a2.inv
      rw [hf] at a3
      exact ⟨w2, b, t1, a2.trans t2, by rw [t3, a3], by rw [t3, a3], by rw [t3, a3], by rw [t3, a3]⟩
    · obtain ⟨⟨b, o⟩, hp'⟩ := Option.ne_none_iff_exists'.mp hp
      have := (h.own d b o ho hp').1
      subst this
      exact ⟨w, b, rfl, Good.refl h, ho, hp', rfl, hl⟩
  obtain ⟨w1, b1, r1, g1, o1, q1, z1, l1⟩ := p1
  have s1 : w1.arr s = w.arr s := g1.frame.arr s (Ne.symm hne)
  -- phase 2
  have p2 : ∃ w2 b, assignRealloc d s w1 = .ok w2 ∧ Good d w1 w2 ∧
      w2.arr d = { w1.arr d with shape := (w.arr s).shape, ptr := some (b, 0), owns := true,
                                 typ := (w.arr s).typ, loc := (w.arr s).loc } := by
    unfold assignRealloc
    rw [if_pos ⟨by rw [q1]; simp, o1⟩]
    have f1 : ∃ v b, (if (w1.arr d).shape ≠ (w1.arr s).shape then realloc d s w1 else .ok w1) = .ok v ∧ Good d w1 v ∧
        v.arr d = { w1.arr d with shape := (w.arr s).shape, ptr := some (b, 0), owns := true } := by
      split_ifs with hc
      · obtain ⟨v, b, e1, e2, e3⟩ := realloc_ok d s w1 g1.inv o1 (by rw [s1, l1]) (by rw [s1]; exact hz)
        exact ⟨v, b, e1, e2, by rw [e3, s1]⟩
      · rw [not_not, s1] at hc
        exact ⟨w1, b1, rfl, Good.refl g1.inv, by rw [← hc, ← q1, ← o1]⟩
    obtain ⟨v, b, e1, e2, e3⟩ := f1
    rw [e1]
    simp only [Res.bind]
    have sv : v.arr s = w.arr s := by rw [e2.frame.arr s (Ne.symm hne), s1]
    have f2 : ∃ u b, (if (v.arr d).shape.length = 2 then realloc d s v else .ok v) = .ok u ∧ Good d v u ∧
        u.arr d = { w1.arr d with shape := (w.arr s).shape, ptr := some (b, 0), owns := true } := by
      split_ifs with hc
      · obtain ⟨u, b, e1, e2, e4⟩ := realloc_ok d s v e2.inv (by rw [e3]) (by rw [sv, e3]) (by rw [sv]; exact hz)
        exact ⟨u, b, e1, e2, by rw [e4, e3, sv]⟩
      · exact ⟨v, b, rfl, Good.refl e2.inv, e3⟩
    obtain ⟨u, b', e4, e5, e6⟩ := f2
    rw [e4]
    simp only
    have su : u.arr s = w.arr s := by rw [e5.frame.arr s (Ne.symm hne), sv]
    obtain ⟨x, t1, t2, t3⟩ := copyTags_good d s u e5.inv
    exact ⟨x, b', t1, (e2.trans e5).trans t2, by rw [t3, e6, su]⟩
  obtain ⟨w2, b, r2, g2, a2⟩ := p2
  refine ⟨w2, b, ?_, g1.trans g2, ?_⟩
  · unfold assign
    rw [if_neg hs, r1]
    simp only [Res.bind]
    rw [r2]
  · rw [a2]
    have : w1.arr d = { w1.arr d with sz := (w.arr d).sz } := by rw [← z1]
    rw [this]

theorem contents_eq (w : World) (i b o : Nat) (B : Block) (hp : (w.arr i).ptr = some (b, o))
    (hb : w.heap.blk b = some B) :
    contents w i = some ((List.range (byteSize (w.arr i))).map fun k => B.dat (o + k)) := by
  unfold contents; rw [hp]; simp only [hb]

theorem contents_frame (w w' : World) (h : Inv w) (d k : Nat) (hf : Frame d w w') (hne : k ≠ d)
    : contents w' k = contents w k := by
  have ha := hf.arr k hne
  cases hp : (w.arr k).ptr with
  | none => unfold contents; rw [ha, hp]
  | some p =>
    obtain ⟨b, o⟩ := p
    obtain ⟨B, hb, _⟩ := room w h k b o hp
    have hlt : b < w.heap.next := by
      by_contra hcon; rw [h.fresh b (by omega)] at hb; cases hb
    have : w'.heap.blk b = w.heap.blk b := by
      apply hf.blk b hlt
      intro o' ho hp'
      exact owned_apart w h d k b b o' o ho hp' hp (Ne.symm hne) rfl
    rw [contents_eq w k b o B hp hb, contents_eq w' k b o B (by rw [ha]; exact hp) (by rw [this]; exact hb), ha]

theorem readElem_eq (w : World) (i : Nat) (idx : List Nat) (a : Arr) (b o k : Nat) (B : Block)
    (ha : w.arr i = a) (hp : a.ptr = some (b, o)) (hk : linear a.shape idx = some k) (hb : w.heap.blk b = some B) :
    readElem i idx w = if o + (k + 1) * a.sz ≤ B.len then
      some ((List.range a.sz).map fun t => B.dat (o + k * a.sz + t)) else none := by
  subst ha
  unfold readElem; rw [hp, hk]; simp only [hb]

end Verif.Mem
