/-
C22 and C23: message buffer regions and completion of receives.
-/
import Verif.Registry.AttachLemmas
import Verif.Registry.WaitLemmas

namespace Verif.Registry

open Verif.Exchange (Header Dir)

/-- What a successful `allocate` looks like. -/
theorem allocate_form (es : List Entry) (hw : WellFormed es) :
    ∃ A, allocate es = .ok A ∧ A.procs.Pairwise (· < ·) ∧ (∀ q, q ∈ A.procs ↔ ∃ e ∈ es, e.proc = q) ∧
      A.sizes.length = A.procs.length ∧ A.place.length = es.length ∧
      (∀ (p : Nat) (q : Int), A.procs[p]? = some q → A.sizes[p]? = some (total es q)) ∧
      (∀ (p : Nat) (q : Int), A.procs[p]? = some q → A.byProc[p]? = some (indices q es 0)) ∧
      ∀ (m : Nat) (e : Entry), es[m]? = some e → ∃ p, A.procs[p]? = some e.proc ∧
        A.place[m]? = some (p, before es e.proc m) := by
  obtain ⟨M, hM, R⟩ := sizeMap_rep es [] (fun _ => 0) (fun _ => False) (fun e he => (hw e he).1)
    ⟨List.Pairwise.nil, by simp⟩ (fun _ _ => rfl)
  simp only [Nat.zero_add, false_or] at R
  have hsorted : (M.map Prod.fst).Pairwise (· < ·) := by
    rw [List.pairwise_map]; exact R.sorted
  have hnd : (M.map Prod.fst).Nodup := hsorted.imp (fun h => Int.ne_of_lt h)
  have hmem : ∀ q, q ∈ M.map Prod.fst ↔ ∃ e ∈ es, e.proc = q := by
    intro q
    rw [List.mem_map]
    constructor
    · rintro ⟨⟨q', s⟩, h, rfl⟩
      exact ((R.mem q' s).mp h).1
    · intro h
      exact ⟨(q, total es q), (R.mem q _).mpr ⟨h, rfl⟩, rfl⟩
  have hin : ∀ e ∈ es, e.proc ∈ M.map Prod.fst := fun e he => (hmem _).mpr ⟨e, he, rfl⟩
  obtain ⟨T, hT, hTl, hTp⟩ := lookupTable_ok (M.map Prod.fst) hnd es 0 (List.replicate M.length []) (by simp) hin
  obtain ⟨l, hl, hll, hlp⟩ := placeAll_ok (M.map Prod.fst) hnd es (List.replicate M.length 0) (by simp)
    (fun e he => ⟨(hw e he).2.2, hin e he⟩)
  refine ⟨⟨M.map Prod.fst, M.map Prod.snd, T, l⟩, ?_, hsorted, hmem, by simp, hll, ?_, ?_, ?_⟩
  · simp only [allocate, hM, hT, hl]
  · intro p q hp
    simp only [List.getElem?_map] at hp ⊢
    rcases hx : M[p]? with _ | ⟨q', s⟩
    · rw [hx] at hp; cases hp
    · rw [hx] at hp
      simp only [Option.map_some, Option.some.injEq] at hp ⊢
      subst hp
      exact ((R.mem q' s).mp (List.mem_of_getElem? hx)).2
  · intro p q hp
    have hpl : p < M.length := by
      by_contra h
      rw [List.getElem?_eq_none (by simp; omega)] at hp; cases hp
    have := hTp p q [] hp (by rw [List.getElem?_replicate, if_pos hpl])
    simpa using this
  · intro m e he
    obtain ⟨p, o, h1, h2, h3⟩ := hlp m e he
    refine ⟨p, h1, ?_⟩
    rw [List.getElem?_replicate] at h2
    by_cases hpl : p < M.length
    · rw [if_pos hpl, Option.some.injEq] at h2
      rw [h3, ← h2, Nat.zero_add]
    · rw [if_neg hpl] at h2; cases h2

/-- **C22 (send side).**  However many connections are registered, in whatever order, allocation succeeds; every
connection gets a region of its own target processor's buffer, regions do not overlap, every byte of every
buffer belongs to a region, and the processors are exactly the targets of the connections. -/
theorem C22_send_layout (es : List Entry) (hw : WellFormed es) : ∃ A, allocate es = .ok A ∧ SendLayout es A := by
  obtain ⟨A, h0, h1, h2, h3, h4, h5, h6, h7⟩ := allocate_form es hw
  have hnd : A.procs.Nodup := h1.imp (fun h => Int.ne_of_lt h)
  refine ⟨A, h0, h1, h2, h3, h4, ?_, ?_, ?_, ?_⟩
  · intro m e he
    obtain ⟨p, a, b⟩ := h7 m e he
    exact ⟨p, _, _, b, a, h5 p _ a, before_le es _ m e he rfl⟩
  · intro m m' e e' p off off' hne he he' hp hp'
    obtain ⟨p1, a1, b1⟩ := h7 m e he
    obtain ⟨p2, a2, b2⟩ := h7 m' e' he'
    rw [hp] at b1
    rw [hp'] at b2
    simp only [Option.some.injEq, Prod.mk.injEq] at b1 b2
    obtain ⟨rfl, rfl⟩ := b1
    obtain ⟨rfl, rfl⟩ := b2
    have hq : e.proc = e'.proc := by rw [a1] at a2; exact Option.some.inj a2
    rcases Nat.lt_or_gt_of_ne hne with h | h
    · left; rw [← hq]; exact before_disjoint es e.proc m m' e he rfl h
    · right; rw [← hq]; exact before_disjoint es e.proc m' m e' he' hq.symm h
  · intro p cap b hs hb
    have hpl : p < A.procs.length := by
      by_contra h
      rw [List.getElem?_eq_none (by omega)] at hs; cases hs
    have hq := List.getElem?_eq_getElem hpl
    rw [h5 p _ hq, Option.some.injEq] at hs
    subst hs
    obtain ⟨m, e, a, b', c, d⟩ := before_cover es _ b hb
    obtain ⟨p', a1, b1⟩ := h7 m e a
    rw [b'] at a1 b1
    rw [index_inj hnd hq a1]
    exact ⟨m, e, _, a, b1, c, d⟩
  · intro p q hq
    refine ⟨_, h6 p q hq, indices_sorted q es 0, ?_⟩
    intro m
    rw [indices_mem]
    constructor
    · rintro ⟨k, e, rfl, h⟩; exact ⟨e, by simpa using h⟩
    · rintro ⟨e, h⟩; exact ⟨m, e, by omega, h⟩

/-- **C22 (missing processor).**  A connection whose neighbour has no processor is reported. -/
theorem C22_no_processor (es : List Entry) (e : Entry) (he : e ∈ es) (hp : e.proc = -1) : allocate es = .exc := by
  have : ∀ (l : List Entry) M, e ∈ l → sizeMap l M = none := by
    intro l
    induction l with
    | nil => intro M h; simp at h
    | cons a l ih =>
      intro M h
      unfold sizeMap
      by_cases ha : a.proc = -1
      · rw [if_pos ha]
      · rw [if_neg ha]
        apply ih
        rcases List.mem_cons.mp h with rfl | h
        · exact absurd hp ha
        · exact h
  unfold allocate
  rw [this es [] he]

/-- **C22 (receive side).**  Rank `a` receives from rank `b` the buffer that `b` laid out for `a`.  If the two
ends agree on the messages (`Matched`), attachment succeeds, every connection of `a` with `b` is attached exactly
once, and to exactly the byte range in which `b` placed the message with the expected header. -/
theorem C22_receive (a b : Int) (esA esB : List Entry) (AA AB : Alloc) (pA pB : Nat) (at_ : Nat → Option Header)
    (hwA : WellFormed esA) (hwB : WellFormed esB) (hm : Matched a b esA esB)
    (hA : allocate esA = .ok AA) (hB : allocate esB = .ok AB)
    (hpA : AA.procs[pA]? = some b) (hpB : AB.procs[pB]? = some a)
    -- the received bytes are the buffer sent: each message `m` that `b` placed at `off` begins with its header
    (hat : ∀ (m : Nat) (e : Entry) (off : Nat), esB[m]? = some e → AB.place[m]? = some (pB, off) →
      at_ off = some e.sendHdr) :
    ∃ got, attach esA AA pA at_ = .ok got ∧ (got.map Prod.fst).Nodup ∧
      (∀ m : Nat, m ∈ got.map Prod.fst ↔ ∃ e, esA[m]? = some e ∧ e.proc = b) ∧
      ∀ m off, (m, off) ∈ got → ∃ (e : Entry) (m' : Nat) (e' : Entry), esA[m]? = some e ∧ esB[m']? = some e' ∧
        AB.place[m']? = some (pB, off) ∧ e'.sendHdr = e.recvHdr ∧ e'.size = e.size := by
  obtain ⟨A', hA', a1, a2, a3, a4, a5, a6, a7⟩ := allocate_form esA hwA
  rw [hA] at hA'; cases hA'
  obtain ⟨B', hB', b1, b2, b3, b4, b5, b6, b7⟩ := allocate_form esB hwB
  rw [hB] at hB'; cases hB'
  have hndB : AB.procs.Nodup := b1.imp (fun h => Int.ne_of_lt h)
  have hselA : ∀ x, x ∈ sel b esA 0 ↔ esA[x.1]? = some x.2 ∧ x.2.proc = b := by
    rintro ⟨m, e⟩
    rw [sel_mem]
    simp
  have hselB : ∀ x, x ∈ sel a esB 0 ↔ esB[x.1]? = some x.2 ∧ x.2.proc = a := by
    rintro ⟨m, e⟩
    rw [sel_mem]
    simp
  have hex : ∀ y ∈ sel a esB 0, ∃ x, Pairs (sel b esA 0) x y := by
    intro y hy
    obtain ⟨h1, h2⟩ := (hselB y).mp hy
    obtain ⟨m, e, g1, g2, g3, g4⟩ := hm.sent y.1 y.2 h1 h2
    exact ⟨(m, e), (hselA (m, e)).mpr ⟨g1, g2⟩, g3, g4⟩
  obtain ⟨seg, hseg⟩ := exists_forall₂ _ _ hex
  have hndSelB : (sel a esB 0).Nodup := by
    have : ((sel a esB 0).map Prod.fst).Nodup := by
      rw [sel_fst]; exact (indices_sorted a esB 0).imp Nat.ne_of_lt
    exact List.Nodup.of_map _ this
  have hndSelA : ((sel b esA 0).map Prod.fst).Nodup := by
    rw [sel_fst]; exact (indices_sorted b esA 0).imp Nat.ne_of_lt
  have hndSeg : seg.Nodup := by
    refine forall₂_nodup hseg hndSelB ?_
    intro x y hy y' hy' r r'
    obtain ⟨h1, h2⟩ := (hselB y).mp hy
    obtain ⟨h1', h2'⟩ := (hselB y').mp hy'
    have := hm.send_inj y.1 y'.1 y.2 y'.2 h1 h1' h2 h2' (by rw [r.2.1, r'.2.1])
    rw [this, h1'] at h1
    exact Prod.ext this (Option.some.inj h1).symm
  have hinjA : ∀ x ∈ sel b esA 0, ∀ y ∈ sel b esA 0, x.2.recvHdr = y.2.recvHdr → x = y := by
    intro x hx y hy h
    obtain ⟨h1, h2⟩ := (hselA x).mp hx
    obtain ⟨h1', h2'⟩ := (hselA y).mp hy
    have := hm.recv_inj x.1 y.1 x.2 y.2 h1 h1' h2 h2' h
    rw [this, h1'] at h1
    exact Prod.ext this (Option.some.inj h1).symm
  have hperm : seg.Perm (sel b esA 0) := by
    rw [List.perm_ext_iff_of_nodup hndSeg (List.Nodup.of_map _ hndSelA)]
    intro x
    constructor
    · intro hx
      obtain ⟨y, _, r⟩ := (forall₂_left hseg).1 x hx
      exact r.1
    · intro hx
      obtain ⟨h1, h2⟩ := (hselA x).mp hx
      obtain ⟨m', e', g1, g2, g3, g4⟩ := hm.expected x.1 x.2 h1 h2
      obtain ⟨x', hx', r⟩ := (forall₂_left hseg).2 (m', e') ((hselB (m', e')).mpr ⟨g1, g2⟩)
      have := hinjA x' r.1 x hx (by rw [← r.2.1]; exact g3)
      rwa [← this]
  have hne : seg ≠ [] := by
    intro h0
    obtain ⟨e, he, hp⟩ := (a2 b).mp (List.mem_of_getElem? hpA)
    obtain ⟨k, hk⟩ := List.mem_iff_getElem?.mp he
    have hmem : (k, e) ∈ seg := hperm.mem_iff.mpr ((hselA (k, e)).mpr ⟨hk, hp⟩)
    rw [h0] at hmem
    cases hmem
  have hplaceB : ∀ (k : Nat) (e : Entry), esB[k]? = some e → e.proc = a →
      AB.place[k]? = some (pB, before esB a k) := by
    intro k e hk he
    obtain ⟨p, g1, g2⟩ := b7 k e hk
    rw [he] at g1 g2
    rw [index_inj hndB hpB g1]; exact g2
  obtain ⟨r, hr1, hr2, hr3⟩ := attachFrom_ok (sel b esA 0) (total esA b) at_
    (fun m o => AB.place[m]? = some (pB, o)) hinjA
    (fun x hx => by
      obtain ⟨h1, _⟩ := (hselA x).mp hx
      exact (hwA x.2 (List.mem_of_getElem? h1)).2.1)
    seg (sel a esB 0) hseg 0 [] hne
    (startsAt_sel _ a esB 0 0 (fun k e hk he => by simpa using hplaceB k e hk he))
    (fun y hy o ho => hat y.1 y.2 o ((hselB y).mp hy).1 ho)
    (by simpa using (hperm.map Prod.fst).nodup_iff.mpr hndSelA)
    (by rw [Nat.zero_add, (hperm.map fun x : Nat × Entry => x.2.size).sum_nat, sel_sizes])
    (by simpa using hperm.length_eq)
  refine ⟨r, ?_, ?_, ?_, ?_⟩
  · simp only [attach, a6 pA b hpA, a5 pA b hpA, sel_filterMap]
    simpa using hr1
  · rw [hr2]; exact (hperm.map Prod.fst).nodup_iff.mpr hndSelA
  · intro m
    rw [hr2, (hperm.map Prod.fst).mem_iff, sel_fst, indices_mem]
    simp
  · intro m off h
    obtain ⟨e, y, g1, g2, g3, g4⟩ := hr3 m off h
    exact ⟨e, y.1, y.2, ((hselA _).mp g1).1, ((hselB y).mp g2).1, g3, g4.2⟩

/-- Connections of rank 0: one with rank 2, two with rank 1. -/
def exA : List Entry :=
  [⟨2, 64, ⟨0, 5, .right⟩, ⟨5, 0, .left⟩⟩, ⟨1, 32, ⟨0, 3, .top⟩, ⟨3, 0, .bottom⟩⟩, ⟨1, 48, ⟨0, 4, .right⟩, ⟨4, 0, .left⟩⟩]

/-- The matching connections of rank 1 with rank 0, in another order. -/
def exB : List Entry :=
  [⟨0, 48, ⟨4, 0, .left⟩, ⟨0, 4, .right⟩⟩, ⟨0, 32, ⟨3, 0, .bottom⟩, ⟨0, 3, .top⟩⟩]

example : WellFormed exA ∧ WellFormed exB := by
  constructor <;> intro e he <;> simp [exA, exB] at he <;> rcases he with rfl | rfl | rfl <;> decide

/-- Processor 1 comes first although it was registered later; its two messages share one buffer. -/
example : ∃ A, allocate exA = .ok A ∧ A.procs = [1, 2] ∧ A.sizes = [80, 64] ∧ A.byProc = [[1, 2], [0]] ∧
    A.place = [(1, 0), (0, 0), (0, 32)] := ⟨_, rfl, rfl, rfl, rfl, rfl⟩

example : Matched 0 1 exA exB := by
  have hA : ∀ (m : Nat) (e : Entry), exA[m]? = some e → e.proc = 1 →
      (m = 1 ∧ e = ⟨1, 32, ⟨0, 3, .top⟩, ⟨3, 0, .bottom⟩⟩) ∨ (m = 2 ∧ e = ⟨1, 48, ⟨0, 4, .right⟩, ⟨4, 0, .left⟩⟩) := by
    intro m e h hp
    match m with
    | 0 => simp [exA] at h; subst h; simp at hp
    | 1 => simp [exA] at h; exact Or.inl ⟨rfl, h.symm⟩
    | 2 => simp [exA] at h; exact Or.inr ⟨rfl, h.symm⟩
    | _ + 3 => simp [exA] at h
  have hB : ∀ (m : Nat) (e : Entry), exB[m]? = some e →
      (m = 0 ∧ e = ⟨0, 48, ⟨4, 0, .left⟩, ⟨0, 4, .right⟩⟩) ∨ (m = 1 ∧ e = ⟨0, 32, ⟨3, 0, .bottom⟩, ⟨0, 3, .top⟩⟩) := by
    intro m e h
    match m with
    | 0 => simp [exB] at h; exact Or.inl ⟨rfl, h.symm⟩
    | 1 => simp [exB] at h; exact Or.inr ⟨rfl, h.symm⟩
    | _ + 2 => simp [exB] at h
  refine ⟨?_, ?_, ?_, ?_⟩
  · intro m e h hp
    rcases hA m e h hp with ⟨_, rfl⟩ | ⟨_, rfl⟩
    · exact ⟨1, _, rfl, rfl, rfl, rfl⟩
    · exact ⟨0, _, rfl, rfl, rfl, rfl⟩
  · intro m e h _
    rcases hB m e h with ⟨_, rfl⟩ | ⟨_, rfl⟩
    · exact ⟨2, _, rfl, rfl, rfl, rfl⟩
    · exact ⟨1, _, rfl, rfl, rfl, rfl⟩
  · intro m₁ m₂ e₁ e₂ h1 h2 p1 p2 hh
    rcases hA m₁ e₁ h1 p1 with ⟨rfl, rfl⟩ | ⟨rfl, rfl⟩ <;> rcases hA m₂ e₂ h2 p2 with ⟨rfl, rfl⟩ | ⟨rfl, rfl⟩ <;>
      first | rfl | (exfalso; revert hh; decide)
  · intro m₁ m₂ e₁ e₂ h1 h2 _ _ hh
    rcases hB m₁ e₁ h1 with ⟨rfl, rfl⟩ | ⟨rfl, rfl⟩ <;> rcases hB m₂ e₂ h2 with ⟨rfl, rfl⟩ | ⟨rfl, rfl⟩ <;>
      first | rfl | (exfalso; revert hh; decide)

/-- Rank 1 sends the 48 byte message first, so rank 0 attaches its third connection to byte 0. -/
example : ∃ A, allocate exA = .ok A ∧ attach exA A 0
    (fun o => if o = 0 then some ⟨4, 0, .left⟩ else if o = 48 then some ⟨3, 0, .bottom⟩ else none) =
    .ok [(2, 0), (1, 48)] := by
  refine ⟨⟨[1, 2], [80, 64], [[1, 2], [0]], [(1, 0), (0, 0), (0, 32)]⟩, rfl, ?_⟩
  change attachFrom [(1, ⟨1, 32, ⟨0, 3, .top⟩, ⟨3, 0, .bottom⟩⟩), (2, ⟨1, 48, ⟨0, 4, .right⟩, ⟨4, 0, .left⟩⟩)] 80 _ 0 [] = _
  rw [attachFrom]
  simp [findHeader]
  rw [attachFrom]
  simp [findHeader]

/-- Two connections between the same two patches in the same direction (as happens when a corner neighbour also
faces the edge) have equal headers; the second message is then attributed to the already attached connection and
attachment ends in an exception, although the buffer was sent correctly. -/
theorem C22_false_duplicate_headers : ∃ (es : List Entry) (A : Alloc) (at_ : Nat → Option Header),
    WellFormed es ∧ allocate es = .ok A ∧ A.sizes = [64] ∧
    (∀ o, o = 0 ∨ o = 32 → at_ o = some ⟨3, 0, .left⟩) ∧ (∀ e ∈ es, e.recvHdr = ⟨3, 0, .left⟩) ∧
    attach es A 0 at_ = .exc := by
  refine ⟨[⟨1, 32, ⟨0, 3, .right⟩, ⟨3, 0, .left⟩⟩, ⟨1, 32, ⟨0, 3, .right⟩, ⟨3, 0, .left⟩⟩],
    ⟨[1], [64], [[0, 1]], [(0, 0), (0, 32)]⟩, fun _ => some ⟨3, 0, .left⟩,
    ?_, rfl, rfl, fun _ _ => rfl, ?_, ?_⟩
  · intro e he; simp at he; subst he; decide
  · intro e he; simp at he; subst he; rfl
  · change attachFrom [(0, ⟨1, 32, ⟨0, 3, .right⟩, ⟨3, 0, .left⟩⟩), (1, ⟨1, 32, ⟨0, 3, .right⟩, ⟨3, 0, .left⟩⟩)] 64 _ 0 [] = _
    rw [attachFrom]
    simp [findHeader]
    rw [attachFrom]
    simp [findHeader]

/-! ### C23 -/

theorem receiveAll_safe (ready : Nat → Nat → Bool) (n fuel : Nat) : ∀ (calls : Nat) (w : Wait) (l : List Nat)
    (w' : Wait), w.received.length = n → receiveAll ready n fuel calls w = some (l, w') →
    l.Nodup ∧ (∀ p, p ∈ l ↔ p < n ∧ w.received[p]? = some false) ∧ (∀ b ∈ w'.received, b = true) ∧
    w'.received.length = n ∧ ∀ p ∈ l, ∃ k, ready k p = true := by
  intro calls
  induction calls with
  | zero => intro _ _ _ _ h; simp [receiveAll] at h
  | succ calls ih =>
    intro w l w' hlen h
    rw [receiveAll] at h
    rcases hw : waitReceive ready n fuel 0 w with _ | ⟨_ | p, v⟩
    · rw [hw] at h; simp at h
    · rw [hw] at h
      simp only [Option.some.injEq, Prod.mk.injEq] at h
      obtain ⟨rfl, rfl⟩ := h
      obtain ⟨a, b⟩ := waitReceive_none ready n fuel 0 w v hlen (by
        intro h0 b hb
        rw [← h0, List.length_eq_zero_iff] at hlen
        rw [hlen] at hb; cases hb) hw
      refine ⟨List.nodup_nil, ?_, by rw [a]; exact b, by rw [a]; exact hlen, by simp⟩
      intro p
      constructor
      · intro h; cases h
      · rintro ⟨_, h⟩
        exact absurd (b _ (List.mem_of_getElem? h)) (by decide)
    · rw [hw] at h
      simp only at h
      obtain ⟨hp1, hp2, hp3, k, _, _, hk⟩ := waitReceive_some ready n fuel 0 w p v hlen hw
      rcases hr : receiveAll ready n fuel calls v with _ | ⟨l', v'⟩
      · rw [hr] at h; simp at h
      · rw [hr] at h
        simp only [Option.some.injEq, Prod.mk.injEq] at h
        obtain ⟨rfl, rfl⟩ := h
        obtain ⟨i1, i2, i3, i4, i5⟩ := ih v l' v' (by rw [hp3]; simpa using hlen) hr
        have hget : ∀ q, v.received[q]? = if p = q then some true else w.received[q]? := by
          intro q
          rw [hp3, List.getElem?_set]
          by_cases hq : p = q
          · subst hq; simp [hlen, hp1]
          · simp [hq]
        have hpl : p ∉ l' := by
          intro hm
          have := ((i2 p).mp hm).2
          rw [hget p, if_pos rfl] at this; cases this
        refine ⟨List.nodup_cons.mpr ⟨hpl, i1⟩, ?_, i3, i4, ?_⟩
        · intro q
          rw [List.mem_cons, i2 q, hget q]
          by_cases hq : p = q
          · subst hq; simp [hp1, hp2]
          · simp [hq, Ne.symm hq]
        · intro q hq
          rcases List.mem_cons.mp hq with rfl | hq
          · exact ⟨k, hk⟩
          · exact i5 q hq

theorem receiveAll_ends (ready : Nat → Nat → Bool) (n K : Nat) (hK : ∀ p, p < n → ∀ k, K ≤ k → ready k p = true) :
    ∀ (calls : Nat) (w : Wait), w.received.length = n → w.received.count false < calls →
    ∃ x, receiveAll ready n (K + 2) calls w = some x := by
  intro calls
  induction calls with
  | zero => intro _ _ h; omega
  | succ calls ih =>
    intro w hlen hc
    rw [receiveAll]
    obtain ⟨⟨_ | p, v⟩, hw⟩ := waitReceive_ends ready n K hK (K + 2) 0 w hlen (by left; omega)
    · rw [hw]; exact ⟨_, rfl⟩
    · rw [hw]
      simp only
      obtain ⟨hp1, hp2, hp3, _⟩ := waitReceive_some ready n (K + 2) 0 w p v hlen hw
      obtain ⟨x, hx⟩ := ih v (by rw [hp3]; simpa using hlen) (by
        rw [hp3]
        have hpl : p < w.received.length := by omega
        rw [List.getElem?_eq_getElem hpl, Option.some.injEq] at hp2
        have h1 := List.count_set (a := true) (b := false) (h := hpl)
        have h2 : 0 < w.received.count false := by
          rw [List.count_pos_iff, ← hp2]; exact List.getElem_mem hpl
        rw [h1, hp2]
        simp
        omega)
      rw [hx]; exact ⟨_, rfl⟩

/-- **C23 (safety).**  For every schedule of message arrivals: if the receive loop ends, it has returned every
one of the `n` communicating processors exactly once, each after its message had arrived. -/
theorem C23_each_once (ready : Nat → Nat → Bool) (n fuel calls polls : Nat) (l : List Nat) (w : Wait)
    (h : receiveAll ready n fuel calls (prepare n polls) = some (l, w)) :
    l.Perm (List.range n) ∧ ∀ p ∈ l, ∃ k, ready k p = true := by
  obtain ⟨h1, h2, _, _, h5⟩ := receiveAll_safe ready n fuel calls (prepare n polls) l w (by simp [prepare]) h
  refine ⟨?_, h5⟩
  rw [List.perm_ext_iff_of_nodup h1 List.nodup_range]
  intro p
  rw [h2, List.mem_range]
  constructor
  · exact fun h => h.1
  · intro hp
    refine ⟨hp, ?_⟩
    simp only [prepare, List.getElem?_replicate, if_pos hp]

/-- **C23 (liveness).**  If every message eventually arrives, in whatever order, the receive loop ends after
`n + 1` waits, having returned every processor exactly once; and this holds again in every later exchange
(`polls` counts the polls of earlier exchanges). -/
theorem C23_completes (ready : Nat → Nat → Bool) (n polls : Nat) (hr : EventuallyArrive ready n) :
    ∃ fuel l w, receiveAll ready n fuel (n + 1) (prepare n polls) = some (l, w) ∧ l.Perm (List.range n) := by
  obtain ⟨K, hK⟩ : ∃ K, ∀ p, p < n → ∀ k, K ≤ k → ready k p = true := by
    have : ∀ m, m ≤ n → ∃ K, ∀ p, p < m → ∀ k, K ≤ k → ready k p = true := by
      intro m
      induction m with
      | zero => intro _; exact ⟨0, fun p hp => absurd hp (by omega)⟩
      | succ m ih =>
        intro hm
        obtain ⟨K1, h1⟩ := ih (by omega)
        obtain ⟨K2, h2⟩ := hr m (by omega)
        refine ⟨K1 + K2, fun p hp k hk => ?_⟩
        by_cases hpm : p = m
        · subst hpm; exact h2 k (by omega)
        · exact h1 p (by omega) k (by omega)
    exact this n (Nat.le_refl _)
  obtain ⟨⟨l, w⟩, h⟩ := receiveAll_ends ready n K hK (n + 1) (prepare n polls) (by simp [prepare]) (by
    simp [prepare])
  exact ⟨K + 2, l, w, h, (C23_each_once ready n _ _ _ l w h).1⟩

/-- **C23 (one wait).**  A single wait either returns a processor whose message has arrived since and which had
not been returned in this exchange, marking exactly that one; or reports completion, in which case all have
been returned. -/
theorem C23_single_wait (ready : Nat → Nat → Bool) (n fuel : Nat) (w w' : Wait) (r : Option Nat)
    (hlen : w.received.length = n) (h : waitReceive ready n fuel 0 w = some (r, w')) :
    match r with
    | some p => p < n ∧ w.received[p]? = some false ∧ w'.received = w.received.set p true ∧
        ∃ k, w.polls ≤ k ∧ k < w'.polls ∧ ready k p = true
    | none => w'.received = w.received ∧ ∀ p, p < n → w.received[p]? = some true := by
  rcases r with _ | p
  · obtain ⟨a, b⟩ := waitReceive_none ready n fuel 0 w w' hlen (by
      intro h0 b hb
      rw [← h0, List.length_eq_zero_iff] at hlen
      rw [hlen] at hb; cases hb) h
    refine ⟨a, fun p hp => ?_⟩
    rw [List.getElem?_eq_getElem (by omega)]
    exact congrArg some (b _ (List.getElem_mem _))
  · exact waitReceive_some ready n fuel 0 w p w' hlen h

/-- **C23 (no early completion).**  If the message of one processor never arrives, the receive loop never
reports completion. -/
theorem C23_missing_message (ready : Nat → Nat → Bool) (n p fuel calls polls : Nat) (hp : p < n)
    (hr : ∀ k, ready k p = false) : receiveAll ready n fuel calls (prepare n polls) = none := by
  rcases h : receiveAll ready n fuel calls (prepare n polls) with _ | ⟨l, w⟩
  · rfl
  · obtain ⟨h1, h2⟩ := C23_each_once ready n fuel calls polls l w h
    obtain ⟨k, hk⟩ := h2 p (h1.mem_iff.mpr (List.mem_range.mpr hp))
    rw [hr k] at hk; cases hk

/-- Three processors answering in the order 2, 0, 1. -/
example : (receiveAll (fun k p => p = 2 || (p = 0 && 4 ≤ k) || 9 ≤ k) 3 20 4 (prepare 3 0)).map Prod.fst =
    some [2, 0, 1] := by decide +kernel

example : EventuallyArrive (fun k p => p = 2 || (p = 0 && 4 ≤ k) || 9 ≤ k) 3 := by
  intro p _; exact ⟨9, fun k hk => by simp [hk]⟩

end Verif.Registry
