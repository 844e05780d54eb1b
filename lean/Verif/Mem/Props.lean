/-
Properties C15-C17: array indexing, assignment and memory ownership.
-/
import Verif.Mem.Lemmas

namespace Verif.Mem

/-- A start: one caller buffer of 100 bytes; arrays with even numbers have shape 2 x 3, the others shape 4;
elements of 8 and 4 bytes. -/
def exWorld : World where
  heap := ⟨fun b => if b = 0 then some ⟨false, 100, fun _ => 7⟩ else none, 1, fun _ _ => 99⟩
  arr := fun i => if i % 2 = 0 then ⟨[2, 3], 8, true, 0, 0, none⟩ else ⟨[4], 4, true, 1, 2, none⟩

theorem exWorld_start : Start exWorld := by
  refine ⟨?_, ?_, ?_⟩
  · intro b hb; simp only [exWorld] at *; rw [if_neg (by omega)]
  · intro b B h; simp only [exWorld] at h; split_ifs at h; injection h with h; rw [← h]
  · intro i; simp only [exWorld]; split_ifs <;> exact ⟨rfl, rfl⟩

/-- The example program: allocate array 0, view the caller's buffer as array 1, write an element, assign. -/
def exOps : List Op := [.allocate 0 [0, 0], .attach 1 0 8, .write 0 [1, 2] (fun _ => 5), .assign 2 0, .setSize 0 [1, 1]]

theorem exOps_ok : OpsOk exWorld exOps := by
  refine ⟨rfl, ⟨_, rfl, rfl, by decide⟩, ⟨by decide, by decide, by decide, ?_⟩, ⟨rfl, rfl, ?_⟩, rfl, trivial⟩
  · exact List.Forall₂.cons (by decide) (List.Forall₂.cons (by decide) List.Forall₂.nil)
  · intro b o o' h; cases h

/-! ### C15 -/

/-- C15: for an array of one to four dimensions an in-range index tuple maps inside the array. -/
theorem C15_offset_in_bounds (shape idx : List Nat) (h1 : 1 ≤ shape.length) (h2 : shape.length ≤ 4)
    (h : List.Forall₂ (· < ·) idx shape) : ∃ k, linear shape idx = some k ∧ k < shape.prod :=
  linear_lt shape idx h1 h2 h

/-- C15: different in-range index tuples map to different elements. -/
theorem C15_offset_injective (shape idx idx' : List Nat) (h1 : 1 ≤ shape.length) (h2 : shape.length ≤ 4)
    (h : List.Forall₂ (· < ·) idx shape) (h' : List.Forall₂ (· < ·) idx' shape) (hne : idx ≠ idx') :
    linear shape idx ≠ linear shape idx' :=
  fun he => hne (linear_inj shape idx idx' h1 h2 h h' he)

/-- C15: every element of the array is reached by an in-range index tuple. -/
theorem C15_offset_onto (shape : List Nat) (h1 : 1 ≤ shape.length) (h2 : shape.length ≤ 4) (k : Nat)
    (hk : k < shape.prod) : ∃ idx, List.Forall₂ (· < ·) idx shape ∧ linear shape idx = some k :=
  linear_surj shape h1 h2 k hk

example : List.Forall₂ (· < ·) [1, 2, 0, 4] [2, 3, 1, 5] ∧ linear [2, 3, 1, 5] [1, 2, 0, 4] = some 29 := by
  refine ⟨?_, rfl⟩
  repeat (first | exact List.Forall₂.nil | refine List.Forall₂.cons (by decide) ?_)

/-- C15: subscripting with square brackets, or taking a slice pointer and indexing it, addresses the same
element as the parenthesised access. -/
theorem C15_slices_agree (shape pre : List Nat) (p j : Nat) (h : slice shape pre = some p) :
    linear shape (pre ++ [j]) = some (p + j) := by
  unfold slice at h
  split at h <;> first | (injection h with h; subst h; simp [linear]) | cases h

example : slice [2, 3, 4] [1, 2] = some 20 := rfl

/-- C15: in every reachable program state an in-range access of an attached array stays inside its memory, a
written element is read back, and all other elements of the array keep their value. -/
theorem C15_access_in_memory (w : World) (hw : Reachable w) (i : Nat) (idx : List Nat) (v : Nat → UInt8)
    (hp : (w.arr i).ptr ≠ none) (h1 : 1 ≤ (w.arr i).shape.length) (h2 : (w.arr i).shape.length ≤ 4)
    (hidx : List.Forall₂ (· < ·) idx (w.arr i).shape) :
    (∃ x, readElem i idx w = some x) ∧
    ∃ w', writeElem i idx v w = .ok w' ∧
      readElem i idx w' = some ((List.range (w.arr i).sz).map v) ∧
      ∀ idx', List.Forall₂ (· < ·) idx' (w.arr i).shape → idx' ≠ idx → readElem i idx' w' = readElem i idx' w := by
  obtain ⟨⟨b, o⟩, hp'⟩ := Option.ne_none_iff_exists'.mp hp
  obtain ⟨B, k, hb, hk, _, hl, e, _, _⟩ := write_ok i idx v w (reach_inv w hw) b o hp' h1 h2 hidx
  have hb' : (setBlk w b (some (patch B (o + k * (w.arr i).sz) (w.arr i).sz v))).heap.blk b =
      some (patch B (o + k * (w.arr i).sz) (w.arr i).sz v) := Function.update_self ..
  refine ⟨⟨_, by rw [readElem_eq w i idx _ b o k B rfl hp' hk hb, if_pos hl]⟩, _, e, ?_, ?_⟩
  · rw [readElem_eq (setBlk w b (some (patch B (o + k * (w.arr i).sz) (w.arr i).sz v))) i idx (w.arr i) b o k _ rfl
      hp' hk hb', if_pos (by exact hl)]
    congr 1
    apply List.map_congr_left
    intro t ht
    rw [List.mem_range] at ht
    simp only [patch]
    rw [if_pos ⟨by omega, by omega⟩]
    congr 1; omega
  · intro idx' hi' hne
    obtain ⟨k', hk', hlt⟩ := linear_lt _ idx' h1 h2 hi'
    have hkk : k' ≠ k := by
      rintro rfl; exact hne (linear_inj _ _ _ h1 h2 hi' hidx (by rw [hk, hk']))
    rw [readElem_eq (setBlk w b (some (patch B (o + k * (w.arr i).sz) (w.arr i).sz v))) i idx' (w.arr i) b o k' _ rfl
      hp' hk' hb', readElem_eq w i idx' _ b o k' B rfl hp' hk' hb]
    have hlen : (patch B (o + k * (w.arr i).sz) (w.arr i).sz v).len = B.len := rfl
    rw [hlen]
    have hm : (List.range (w.arr i).sz).map (fun t => (patch B (o + k * (w.arr i).sz) (w.arr i).sz v).dat
        (o + k' * (w.arr i).sz + t)) = (List.range (w.arr i).sz).map (fun t => B.dat (o + k' * (w.arr i).sz + t)) := by
      apply List.map_congr_left
      intro t ht
      rw [List.mem_range] at ht
      simp only [patch]
      rw [if_neg]
      rintro ⟨q1, q2⟩
      rcases Nat.lt_or_gt_of_ne hkk with hlt | hgt
      · have : (k' + 1) * (w.arr i).sz ≤ k * (w.arr i).sz := Nat.mul_le_mul_right _ hlt
        have : (k' + 1) * (w.arr i).sz = k' * (w.arr i).sz + (w.arr i).sz := by ring
        omega
      · have : (k + 1) * (w.arr i).sz ≤ k' * (w.arr i).sz := Nat.mul_le_mul_right _ hgt
        have : (k + 1) * (w.arr i).sz = k * (w.arr i).sz + (w.arr i).sz := by ring
        omega
    rw [hm]

example : ∃ w, Reachable w ∧ (w.arr 2).ptr ≠ none ∧ (w.arr 2).shape = [2, 3] := by
  obtain ⟨w, e, _, _⟩ := runOps_safe exOps exWorld (start_inv _ exWorld_start) exOps_ok
  refine ⟨w, ⟨_, _, exWorld_start, exOps_ok, e⟩, ?_⟩
  have : runOps exOps exWorld = .ok w := e
  have h2 : ∃ w', runOps exOps exWorld = .ok w' ∧ (w'.arr 2).ptr ≠ none ∧ (w'.arr 2).shape = [2, 3] :=
    ⟨_, rfl, by decide, by decide⟩
  obtain ⟨w', e', p, q⟩ := h2
  rw [e] at e'; injection e' with e'; rw [e']; exact ⟨p, q⟩

/-- C15: the bounds check compiled in with `DEBUG_ARRAYOUTOFBOUNDS` does not catch all accesses out of
bounds: an index equal to the size passes and addresses past the end. -/
theorem C15_debug_check_false (n : Nat) : debugAccepts [n] [n] = true ∧ linear [n] [n] = some n ∧ ¬ n < [n].prod := by
  simp [debugAccepts, linear]

/-! ### C16 -/

/-- C16: `a = b` for an array `a` that owns its memory (or has none yet) and an attached array `b ≠ a` with
non-zero sizes succeeds; `a` then has the shape, tags and bytes of `b`, and `b` and every other array are
unchanged. -/
theorem C16_assign_copies (w : World) (hw : Reachable w) (d s : Nat) (hne : d ≠ s)
    (hs : (w.arr s).ptr ≠ none) (ho : (w.arr d).owns = true)
    (hl : (w.arr d).shape.length = (w.arr s).shape.length) (hsz : (w.arr d).sz = (w.arr s).sz)
    (hz : 0 ∉ (w.arr s).shape) :
    ∃ w', assign d s w = .ok w' ∧ (w'.arr d).shape = (w.arr s).shape ∧ (w'.arr d).typ = (w.arr s).typ ∧
      (w'.arr d).loc = (w.arr s).loc ∧ (w'.arr d).owns = true ∧ contents w' d = contents w s ∧
      ∀ k, k ≠ d → w'.arr k = w.arr k ∧ contents w' k = contents w k := by
  have h := reach_inv w hw
  obtain ⟨w2, b, e, g, a⟩ := assign_prepare d s w h hs ho hl hz hne
  have s2 : w2.arr s = w.arr s := g.frame.arr s (Ne.symm hne)
  obtain ⟨⟨b', o'⟩, hp⟩ := Option.ne_none_iff_exists'.mp hs
  have hd2 : (w2.arr d).ptr = some (b, 0) := by rw [a]
  have hs2 : (w2.arr s).ptr = some (b', o') := by rw [s2]; exact hp
  have ho2 : (w2.arr d).owns = true := by rw [a]
  have hbs : byteSize (w2.arr d) = byteSize (w2.arr s) := by
    apply byteSize_congr
    · rw [a, s2]
    · rw [a, s2]; exact hsz
  have hap := owned_apart w2 g.inv d s b b' 0 o' ho2 hd2 hs2 hne
  obtain ⟨B, B', hb, hb', q1, q2, q3⟩ := copyBytes_ok d s w2 g.inv b 0 b' o' hd2 hs2 hbs (Or.inl hap)
  have hcs := contents_frame w w2 h d s g.frame (Ne.symm hne)
  refine ⟨setBlk w2 b (some (patch B 0 (byteSize (w2.arr d)) (fun k => B'.dat (o' + k)))), ?_, ?_, ?_, ?_, ?_, ?_, ?_⟩
  · rw [e]; unfold checkAndCopy
    rw [if_neg (by rw [a, s2]; simp), if_neg (by rw [a, s2]; simp), if_neg (by rw [a, s2]; simp)]
    exact q1
  · simp only [setBlk]; rw [a]
  · simp only [setBlk]; rw [a]
  · simp only [setBlk]; rw [a]
  · simp only [setBlk]; rw [a]
  · rw [← hcs, contents_eq w2 s b' o' B' hs2 hb']
    rw [contents_eq (setBlk w2 b (some (patch B 0 (byteSize (w2.arr d)) (fun k => B'.dat (o' + k)))))
      d b 0 _ hd2 (by simp only [setBlk]; exact Function.update_self ..)]
    simp only [setBlk]
    rw [hbs]
    congr 1
    apply List.map_congr_left
    intro t ht
    rw [List.mem_range] at ht
    simp only [patch]
    rw [if_pos ⟨by omega, by omega⟩]
    congr 1; omega
  · intro k hk
    have hf := store_frame w2 d b 0 (byteSize (w2.arr d)) (fun k => B'.dat (o' + k)) B ho2 hd2
    have hf' := g.frame.trans hf
    exact ⟨hf'.arr k hk, contents_frame w _ h d k hf' hk⟩

example : ∃ w, Reachable w ∧ (w.arr 0).ptr ≠ none ∧ (w.arr 2).owns = true ∧ 0 ∉ (w.arr 0).shape ∧
    (w.arr 2).shape.length = (w.arr 0).shape.length ∧ (w.arr 2).sz = (w.arr 0).sz := by
  obtain ⟨w, e, _, _⟩ := runOps_safe [.allocate 0 [0, 0]] exWorld (start_inv _ exWorld_start) ⟨rfl, trivial⟩
  refine ⟨w, ⟨_, [.allocate 0 [0, 0]], exWorld_start, ⟨rfl, trivial⟩, e⟩, ?_⟩
  have h2 : ∃ w', runOps [.allocate 0 [0, 0]] exWorld = .ok w' ∧ (w'.arr 0).ptr ≠ none ∧ (w'.arr 2).owns = true ∧
    0 ∉ (w'.arr 0).shape ∧ (w'.arr 2).shape.length = (w'.arr 0).shape.length ∧ (w'.arr 2).sz = (w'.arr 0).sz :=
    ⟨_, rfl, by decide, by decide, by decide, by decide, by decide⟩
  obtain ⟨w', e', p⟩ := h2
  rw [e] at e'; injection e' with e'; rw [e']; exact p

/-- C16: assigning to a view (an array attached to the caller's memory) of the same shape and tags whose memory
is apart from the source's copies the bytes and changes nothing else that does not share that memory. -/
theorem C16_assign_to_view (w : World) (hw : Reachable w) (d s b o b' o' : Nat)
    (ho : (w.arr d).owns = false) (hd : (w.arr d).ptr = some (b, o)) (hs : (w.arr s).ptr = some (b', o'))
    (hsh : (w.arr d).shape = (w.arr s).shape) (ht : (w.arr d).typ = (w.arr s).typ)
    (hlc : (w.arr d).loc = (w.arr s).loc) (hsz : (w.arr d).sz = (w.arr s).sz)
    (hap : b ≠ b' ∨ o + byteSize (w.arr d) ≤ o' ∨ o' + byteSize (w.arr d) ≤ o) :
    ∃ w', assign d s w = .ok w' ∧ w'.arr = w.arr ∧ contents w' d = contents w s ∧
      ∀ k bk ok, (w.arr k).ptr = some (bk, ok) →
        (bk ≠ b ∨ ok + byteSize (w.arr k) ≤ o ∨ o + byteSize (w.arr d) ≤ ok) → contents w' k = contents w k := by
  have h := reach_inv w hw
  have hbs : byteSize (w.arr d) = byteSize (w.arr s) := byteSize_congr _ _ hsh hsz
  obtain ⟨B, B', hb, hb', q1, q2, q3⟩ := copyBytes_ok d s w h b o b' o' hd hs hbs
    (by rcases hap with h | h | h <;> simp [h])
  refine ⟨setBlk w b (some (patch B o (byteSize (w.arr d)) (fun k => B'.dat (o' + k)))), ?_, rfl, ?_, ?_⟩
  · unfold assign assignAlloc
    rw [if_neg (by rw [hs]; simp), if_neg (by rw [hd]; simp)]
    simp only [Res.bind]
    unfold assignRealloc
    rw [if_neg (by rw [ho]; simp)]
    simp only
    unfold checkAndCopy
    rw [if_neg (by simp [hsh]), if_neg (by simp [ht]), if_neg (by simp [hlc])]
    exact q1
  · rw [contents_eq w s b' o' B' hs hb']
    rw [contents_eq (setBlk w b (some (patch B o (byteSize (w.arr d)) (fun k => B'.dat (o' + k))))) d b o _ hd (by simp only [setBlk]; exact Function.update_self ..)]
    simp only [setBlk]
    rw [hbs]
    congr 1
    apply List.map_congr_left
    intro t ht
    rw [List.mem_range] at ht
    simp only [patch]
    rw [if_pos ⟨by omega, by omega⟩]
    congr 1; omega
  · intro k bk ok hk hsep
    obtain ⟨Bk, hbk, _⟩ := room w h k bk ok hk
    rw [contents_eq w k bk ok Bk hk hbk]
    by_cases hbb : bk = b
    · subst hbb
      rw [contents_eq (setBlk w bk (some (patch B o (byteSize (w.arr d)) (fun k => B'.dat (o' + k))))) k bk ok _ hk (by simp only [setBlk]; exact Function.update_self ..)]
      rw [hbk] at hb; injection hb with hb; subst hb
      simp only [setBlk]
      congr 1
      apply List.map_congr_left
      intro t ht
      rw [List.mem_range] at ht
      simp only [patch]
      rw [if_neg]
      rintro ⟨r1, r2⟩
      rcases hsep with h | h | h
      · exact h rfl
      · omega
      · omega
    · rw [contents_eq (setBlk w b (some (patch B o (byteSize (w.arr d)) (fun k => B'.dat (o' + k))))) k bk ok Bk hk (by simp only [setBlk]; rw [Function.update_of_ne hbb]; exact hbk)]
      rfl

/-- Two adjacent views of the caller's buffer meet the hypotheses (and the first those of `C16_self_assign`). -/
example : ∃ w, Reachable w ∧ (w.arr 1).owns = false ∧ (w.arr 1).ptr = some (0, 0) ∧ (w.arr 3).ptr = some (0, 16) ∧
    (w.arr 1).shape = (w.arr 3).shape ∧ (w.arr 1).shape.length ≠ 2 ∧ 0 + byteSize (w.arr 1) ≤ 16 := by
  have hok : OpsOk exWorld [.attach 1 0 0, .attach 3 0 16] :=
    ⟨⟨_, rfl, rfl, by decide⟩, ⟨_, rfl, rfl, by decide⟩, trivial⟩
  have h2 : ∃ w', runOps [.attach 1 0 0, .attach 3 0 16] exWorld = .ok w' ∧ (w'.arr 1).owns = false ∧
      (w'.arr 1).ptr = some (0, 0) ∧ (w'.arr 3).ptr = some (0, 16) ∧ (w'.arr 1).shape = (w'.arr 3).shape ∧
      (w'.arr 1).shape.length ≠ 2 ∧ 0 + byteSize (w'.arr 1) ≤ 16 :=
    ⟨_, rfl, by decide, by decide, by decide, by decide, by decide, by decide⟩
  obtain ⟨w', e', p⟩ := h2
  exact ⟨w', ⟨_, _, exWorld_start, hok, e'⟩, p⟩

/-- C16: `a = a` leaves an attached array of one, three or four dimensions unchanged. -/
theorem C16_self_assign (w : World) (hw : Reachable w) (d : Nat) (hp : (w.arr d).ptr ≠ none)
    (hl : (w.arr d).shape.length ≠ 2) :
    ∃ w', assign d d w = .ok w' ∧ ∀ k, w'.arr k = w.arr k ∧ contents w' k = contents w k := by
  have h := reach_inv w hw
  obtain ⟨⟨b, o⟩, hp'⟩ := Option.ne_none_iff_exists'.mp hp
  obtain ⟨B, B', hb, hb', q1, q2, q3⟩ := copyBytes_ok d d w h b o b o hp' hp' rfl (Or.inr (Or.inl rfl))
  rw [hb] at hb'; injection hb' with hb'; subst hb'
  have hB : patch B o (byteSize (w.arr d)) (fun k => B.dat (o + k)) = B := by
    obtain ⟨m, l, f⟩ := B
    simp only [patch]
    congr 1
    funext k
    split_ifs with hk
    · congr 1; omega
    · rfl
  have hw' : setBlk w b (some (patch B o (byteSize (w.arr d)) (fun k => B.dat (o + k)))) = w := by
    rw [hB]
    have : Function.update w.heap.blk b (some B) = w.heap.blk := by rw [← hb]; exact Function.update_eq_self ..
    unfold setBlk; rw [this]
  rw [hw'] at q1
  refine ⟨w, ?_, fun k => ⟨rfl, rfl⟩⟩
  unfold assign assignAlloc
  rw [if_neg hp, if_neg hp]
  simp only [Res.bind]
  have hr : assignRealloc d d w = .ok w := by
    have hself : setArr w d (w.arr d) = w := by unfold setArr; rw [Function.update_eq_self]
    unfold assignRealloc
    by_cases hc : (w.arr d).ptr ≠ none ∧ (w.arr d).owns = true
    · rw [if_pos hc, if_neg (by simp)]
      simp only [Res.bind]
      rw [if_neg hl]
      simp only [copyTags]
      rw [hself]
    · rw [if_neg hc]
  rw [hr]
  simp only
  unfold checkAndCopy
  rw [if_neg (by simp), if_neg (by simp), if_neg (by simp)]
  exact q1

/-- C16 is false for two-dimensional arrays that own their data: `a = a` silently zeroes the array. -/
theorem C16_self_assign_2d_false : ∃ w w', Reachable w ∧ (w.arr 0).shape = [2, 3] ∧ assign 0 0 w = .ok w' ∧
    contents w 0 ≠ contents w' 0 ∧ contents w' 0 = some (List.replicate 48 0) := by
  have h : ∃ w w', runOps [.allocate 0 [0, 0], .write 0 [1, 2] (fun _ => 5)] exWorld = .ok w ∧
      (w.arr 0).shape = [2, 3] ∧ assign 0 0 w = .ok w' ∧
      contents w 0 ≠ contents w' 0 ∧ contents w' 0 = some (List.replicate 48 0) :=
    ⟨_, _, rfl, rfl, rfl, by decide, by decide⟩
  obtain ⟨w, w', e, r⟩ := h
  refine ⟨w, w', ⟨_, [.allocate 0 [0, 0], .write 0 [1, 2] (fun _ => 5)], exWorld_start,
    ⟨rfl, ⟨by decide, by decide, by decide, ?_⟩, trivial⟩, e⟩, r⟩
  exact List.Forall₂.cons (by decide) (List.Forall₂.cons (by decide) List.Forall₂.nil)

/-- C16: assignments that cannot be carried out are refused and change nothing: from an unattached source to
an attached destination, and to a view of different shape or tags. -/
theorem C16_refused (w : World) (d s : Nat) :
    ((w.arr s).ptr = none → (w.arr d).ptr ≠ none → assign d s w = .exc w) ∧
    ((w.arr s).ptr ≠ none → (w.arr d).ptr ≠ none → (w.arr d).owns = false →
      ((w.arr s).shape ≠ (w.arr d).shape ∨ (w.arr s).typ ≠ (w.arr d).typ ∨ (w.arr s).loc ≠ (w.arr d).loc) →
      assign d s w = .exc w) := by
  constructor
  · intro h1 h2; unfold assign; rw [if_pos h1, if_neg h2]
  · intro h1 h2 h3 h4
    unfold assign assignAlloc
    rw [if_neg h1, if_neg h2]
    simp only [Res.bind]
    unfold assignRealloc
    rw [if_neg (by rw [h3]; simp)]
    simp only
    unfold checkAndCopy
    split_ifs with c1 c2 c3
    · rfl
    · rfl
    · rfl
    · exfalso; rcases h4 with h | h | h
      · exact c1 h
      · exact c2 h
      · exact c3 h

/-! ### C17 -/

/-- C17: whatever permitted sequence of calls a program makes (catching exceptions as it likes), nothing
undefined happens - in particular no block is released twice and no caller memory is released - every block
allocated by the arrays and not yet released is owned by exactly one array, which is attached to its start,
and the caller's buffers are all still there. -/
theorem C17_ownership (w0 : World) (h0 : Start w0) (ops : List Op) (hops : OpsOk w0 ops) :
    ∃ w, runOps ops w0 = .ok w ∧
      (∀ b B, w.heap.blk b = some B → B.malloced = true →
        ∃ i, (w.arr i).owns = true ∧ (w.arr i).ptr = some (b, 0) ∧ B.len = byteSize (w.arr i) ∧
          ∀ j, (w.arr j).owns = true → (w.arr j).ptr = some (b, 0) → j = i) ∧
      (∀ b B, w0.heap.blk b = some B → ∃ B', w.heap.blk b = some B' ∧ B'.malloced = false ∧ B'.len = B.len) := by
  obtain ⟨w, e, h, x⟩ := runOps_safe ops w0 (start_inv w0 h0) hops
  refine ⟨w, e, ?_, ?_⟩
  · intro b B hb hm
    obtain ⟨i, o, h1, h2⟩ := h.noleak b B hb hm
    obtain ⟨e0, B', h3, _, h5⟩ := h.own i b o h1 h2
    subst e0
    rw [hb] at h3; injection h3 with h3; subst h3
    exact ⟨i, h1, h2, h5, fun j q1 q2 => h.uniq j i b 0 0 q1 q2 h1 h2⟩
  · intro b B hb; exact x b B hb (h0.ext b B hb)

example : Start exWorld ∧ OpsOk exWorld exOps := ⟨exWorld_start, exOps_ok⟩

/-- C17: once every array has been detached or destroyed, nothing the arrays allocated is left. -/
theorem C17_no_leak (w : World) (hw : Reachable w) (hall : ∀ i, (w.arr i).ptr = none) (b : Nat) (B : Block)
    (hb : w.heap.blk b = some B) : B.malloced = false := by
  cases hm : B.malloced with
  | false => rfl
  | true =>
    obtain ⟨i, o, _, h2⟩ := (reach_inv w hw).noleak b B hb hm
    rw [hall i] at h2; cases h2

example : Reachable exWorld ∧ ∀ i, (exWorld.arr i).ptr = none :=
  ⟨⟨exWorld, [], exWorld_start, trivial, rfl⟩, fun i => (exWorld_start.null i).1⟩

/-- C17: detaching (or destroying) a view leaves all memory alone; detaching an owner releases its block. -/
theorem C17_detach (w : World) (hw : Reachable w) (i b o : Nat) (hp : (w.arr i).ptr = some (b, o)) :
    ∃ w', detach i w = .ok w' ∧ (w'.arr i).ptr = none ∧
      ((w.arr i).owns = false → w'.heap.blk = w.heap.blk) ∧
      ((w.arr i).owns = true → w'.heap.blk = Function.update w.heap.blk b none) := by
  have h := reach_inv w hw
  cases ho : (w.arr i).owns with
  | false =>
    refine ⟨setArr w i { w.arr i with owns := true, ptr := none }, ?_, by simp [setArr], fun _ => rfl, by simp⟩
    unfold detach; simp only [ho]
  | true =>
    obtain ⟨e0, B, hb, hm, _⟩ := h.own i b o ho hp
    refine ⟨setBlk (setArr w i { w.arr i with owns := true, ptr := none }) b none, ?_, by simp [setArr, setBlk],
      by simp, fun _ => rfl⟩
    unfold detach; simp only [ho, hp, hb]; rw [if_pos ⟨hm, e0⟩]

/-- C17: calls that would break ownership are refused without any effect. -/
theorem C17_refused (w : World) (i : Nat) (b o : Nat) (s args : List Nat) :
    ((w.arr i).ptr ≠ none → attach i b o w = .exc w) ∧
    ((w.arr i).ptr ≠ none → setSize i s w = .exc w) ∧
    ((w.arr i).owns = false → allocate i args w = .exc w) ∧
    ((w.arr i).owns = false → deallocate i w = .exc w) ∧
    ((w.arr i).ptr = none → zero i w = .exc w) := by
  refine ⟨?_, ?_, ?_, ?_, ?_⟩
  · intro h; unfold attach; rw [if_pos h]
  · intro h; unfold setSize; rw [if_pos h]
  · intro h; unfold allocate; simp [h]
  · intro h; unfold deallocate; rw [if_pos h]
  · intro h; unfold zero; rw [h]

/-- C17: a successful `Allocate` yields an owned array of the requested shape (zero arguments standing for the
present sizes), no size zero, all of whose elements are zero bytes, and leaves every other array alone. -/
theorem C17_allocate_fresh_and_zero (w : World) (hw : Reachable w) (i : Nat) (args : List Nat)
    (ho : (w.arr i).owns = true) (hz : 0 ∉ fillSizes args (w.arr i).shape) :
    ∃ w' b B, allocate i args w = .ok w' ∧ (w'.arr i).shape = fillSizes args (w.arr i).shape ∧
      (w'.arr i).owns = true ∧ (w'.arr i).ptr = some (b, 0) ∧ w'.heap.blk b = some B ∧
      (∀ k, k < total (w'.arr i) * (w'.arr i).sz → B.dat k = 0) ∧
      ∀ k, k ≠ i → w'.arr k = w.arr k ∧ contents w' k = contents w k := by
  have h := reach_inv w hw
  obtain ⟨w', b, e, g, a, _⟩ := allocate_ok i args w h ho hz
  have hp : (w'.arr i).ptr = some (b, 0) := by rw [a]
  obtain ⟨_, B, hB, _, _⟩ := g.inv.own i b 0 (by rw [a]) hp
  refine ⟨w', b, B, e, by rw [a], by rw [a], hp, hB, ?_, fun k hk => ⟨g.frame.arr k hk, contents_frame w w' h i k g.frame hk⟩⟩
  -- the last action of Allocate is Zero
  have hlast : ∃ v, zero i v = .ok w' := by
    unfold allocate at e
    simp only [ho, Bool.true_eq_false, if_false, hz] at e
    split_ifs at e
    · obtain ⟨w1, d1, _, _⟩ := detach_good i w h
      rw [d1] at e
      simp only [Res.bind, mallocFor] at e
      exact ⟨_, e⟩
    · exact ⟨_, e⟩
  obtain ⟨v, hv⟩ := hlast
  intro k hk
  unfold zero at hv
  cases hvp : (v.arr i).ptr with
  | none => rw [hvp] at hv; cases hv
  | some p =>
    obtain ⟨bv, ov⟩ := p
    rw [hvp] at hv
    simp only [store] at hv
    cases hvb : v.heap.blk bv with
    | none => rw [hvb] at hv; cases hv
    | some Bv =>
      rw [hvb] at hv
      simp only at hv
      split_ifs at hv with hlen
      injection hv with hv
      rw [← hv] at hp hB hk
      simp only [setBlk] at hp hB hk
      rw [hvp] at hp
      injection hp with hp; injection hp with hp1 hp2
      subst hp1 hp2
      rw [Function.update_self] at hB
      injection hB with hB
      rw [← hB]
      simp only [patch]
      rw [if_pos]
      refine ⟨Nat.zero_le _, ?_⟩
      unfold zeroBytes
      have := total_le_byteSize (v.arr i)
      split_ifs <;> omega

example : 0 ∉ fillSizes [0, 7] (exWorld.arr 0).shape ∧ fillSizes [0, 7] (exWorld.arr 0).shape = [2, 7] := by decide

end Verif.Mem
