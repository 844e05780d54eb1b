/-
C28: message tags.  C29: output consolidation finishes exactly when everything has arrived.
-/
import Verif.Consol.Lemmas

namespace Verif.Consol

open Verif.Exchange (Res)

/-! ### C28 -/

/-- **C28 (partial).**  For data types below 16 and the four locations, parsing the tag of a triple gives the triple
back, for every patch index.  Missing: the types from 16 (Divergence) on, for which it is false, see below. -/
theorem C28_roundtrip_partial (ix t l : Int) (ht : 0 ≤ t ∧ t < 16) (hl : ValidLocation l) :
    parseTag (generateTag ix t l) = (ix, t, l) := by
  unfold ValidLocation at hl
  unfold parseTag generateTag pairKey
  refine Prod.ext ?_ (Prod.ext ?_ ?_) <;> simp only <;> omega

/-- **C28 (partial).**  Tags of different triples are different, for data types below 16. -/
theorem C28_injective_partial (ix t l ix' t' l' : Int) (ht : 0 ≤ t ∧ t < 16) (ht' : 0 ≤ t' ∧ t' < 16)
    (hl : ValidLocation l) (hl' : ValidLocation l') (e : generateTag ix t l = generateTag ix' t' l') :
    ix = ix' ∧ t = t' ∧ l = l' := by
  have h := C28_roundtrip_partial ix t l ht hl
  rw [e, C28_roundtrip_partial ix' t' l' ht' hl'] at h
  simp only [Prod.mk.injEq] at h
  exact ⟨h.1.symm, h.2.1.symm, h.2.2.symm⟩

/-- What parsing gives for every type: types from 16 on come back as another type of a later patch. -/
theorem C28_parse (ix t l : Int) (hl : ValidLocation l) :
    parseTag (generateTag ix t l) = (ix + t / 16, t % 16, l) := by
  unfold ValidLocation at hl
  unfold parseTag generateTag pairKey
  refine Prod.ext ?_ (Prod.ext ?_ ?_) <;> simp only <;> omega

/-- **C28 is false of the code.**  Every type of the enumeration from `DataType_Divergence` = 16 to
`DataType_Richardson` = 19 shares, on every patch, its tag with another type on the next patch, and parsing gives the
latter. -/
theorem C28_false (ix t l : Int) (ht : 16 ≤ t ∧ t ≤ 19) (hl : ValidLocation l) :
    generateTag ix t l = generateTag (ix + 1) (t - 16) l ∧
    parseTag (generateTag ix t l) = (ix + 1, t - 16, l) := by
  rw [C28_parse ix t l hl]
  refine ⟨by unfold generateTag pairKey; omega, ?_⟩
  refine Prod.ext ?_ (Prod.ext ?_ ?_) <;> simp only <;> omega

/-- No 32-bit overflow for up to 2^25 patches and types below 16, and the tag is not negative. -/
theorem C28_no_overflow (ix t l : Int) (hi : 0 ≤ ix ∧ ix < 2 ^ 25) (ht : 0 ≤ t ∧ t < 16) (hl : ValidLocation l) :
    0 ≤ generateTag ix t l ∧ generateTag ix t l < 2 ^ 31 := by
  unfold ValidLocation at hl
  unfold generateTag pairKey
  omega

example : generateTag 5 12 2 = 370 ∧ parseTag 370 = (5, 12, 2) := by decide
example : generateTag 3 16 0 = generateTag 4 0 0 := by decide

/-! ### C29 -/

/-- **C29.**  For distinct requested (type, location) pairs: after any sequence of messages, in any order, with any
duplicates, unknown types and patch indices out of range among them, the root reports completion exactly when
every requested pair has arrived from every patch. -/
theorem C29_done (active n : Nat) (req : List (Int × Int)) (msgs : List (Int × Int × Int)) (hv : ValidRequest req)
    (hn : req.Nodup) (hm : ValidMessages msgs) :
    ∃ s, receive (create 0 active n req) msgs = some s ∧ (done s = true ↔ Complete n req msgs) := by
  obtain ⟨s, acc, h1, h2, h3⟩ := inv_receive msgs (inv_create active n req)
  refine ⟨s, h1, ?_⟩
  rw [inv_done h2]
  constructor
  · intro h i hi q hq
    obtain ⟨m, hm', e⟩ := List.mem_iff_getElem.1 hq
    have := (h3 i m).1 (h m hm' i hi)
    rcases this with h | ⟨-, ⟨a, t, l⟩, hx, rfl, hp⟩
    · simp at h
    · obtain ⟨q', hq', hk⟩ := position_lt hp
      have e' : q' = q := by rw [List.getElem?_eq_getElem hm'] at hq'; rw [← Option.some.inj hq', e]
      subst e'
      have := pairKey_inj (hv q' hq) (hm _ hx) hk
      simp only at this
      rw [this.1, this.2]
      exact hx
  · intro h m hm' i hi
    rw [h3]
    right
    refine ⟨hi, ((i : Int), req[m].1, req[m].2), h i hi _ (List.getElem_mem hm'), rfl, ?_⟩
    exact position_nodup hv hn (List.getElem?_eq_getElem hm')

/-- **C29 (each message).**  After any messages, a further one is accepted exactly when its pair was requested, its
patch exists, and it has not arrived before; any other is refused (and a refused message leaves the status as it
was, by the model of exceptions). -/
theorem C29_accept (active n : Nat) (req : List (Int × Int)) (msgs : List (Int × Int × Int)) (ix t l : Int)
    (hv : ValidRequest req) (hn : req.Nodup) (hm : ValidMessages msgs) (hl : ValidLocation l) (s : Status)
    (hs : receive (create 0 active n req) msgs = some s) :
    (setReceive s ix t l = .exc ∨ ∃ s', setReceive s ix t l = .ok s') ∧
    ((∃ s', setReceive s ix t l = .ok s') ↔
      (t, l) ∈ req ∧ 0 ≤ ix ∧ ix < n ∧ (ix, t, l) ∉ msgs) := by
  obtain ⟨s', acc, h1, h2, h3⟩ := inv_receive msgs (inv_create active n req)
  rw [hs] at h1; cases h1
  have arrived : ∀ i m : Nat, i < n → position req (pairKey t l) = some m →
      ((i, m) ∈ acc ↔ ((i : Int), t, l) ∈ msgs) := by
    intro i m hi hp
    rw [h3]
    constructor
    · rintro (h | ⟨-, ⟨a, t', l'⟩, hx, rfl, hp'⟩)
      · simp at h
      · obtain ⟨q, hq, hk⟩ := position_lt hp
        obtain ⟨q', hq', hk'⟩ := position_lt hp'
        rw [hq] at hq'; cases hq'
        have := pairKey_inj hl (hm _ hx) (hk.symm.trans hk')
        simp only at this
        rw [this.1, this.2]; exact hx
    · intro h; exact Or.inr ⟨hi, _, h, rfl, hp⟩
  have req_iff : ∀ m, position req (pairKey t l) = some m → (t, l) ∈ req := by
    intro m hp
    obtain ⟨q, hq, hk⟩ := position_lt hp
    have hmem := List.mem_of_getElem? hq
    have := pairKey_inj (hv q hmem) hl hk
    rw [← this.1, ← this.2]; exact hmem
  rcases inv_set h2 ix t l with ⟨m, i, hp, rfl, hi, hin, s', hs', -⟩ | ⟨hs', hc⟩
  · refine ⟨Or.inr ⟨s', hs'⟩, ⟨fun _ => ⟨req_iff m hp, by omega, by omega, ?_⟩, fun _ => ⟨s', hs'⟩⟩⟩
    rw [← arrived i m hi hp]; exact hin
  · refine ⟨Or.inl hs', ⟨?_, ?_⟩⟩
    · rintro ⟨s', h⟩; rw [hs'] at h; cases h
    · rintro ⟨hq, h0, h4, hno⟩
      exfalso
      rcases hc with hc | hc | ⟨m, i, hp, rfl, hi, hin⟩
      · obtain ⟨m, hm', e⟩ := List.mem_iff_getElem.1 hq
        have := position_nodup hv hn (List.getElem?_eq_getElem hm')
        rw [e] at this
        rw [hc] at this; cases this
      · omega
      · exact hno ((arrived i m hi hp).1 hin)

/-- **C29 (order).**  Messages in another order give the same answer. -/
theorem C29_order (active n : Nat) (req : List (Int × Int)) (msgs msgs' : List (Int × Int × Int))
    (hv : ValidRequest req) (hn : req.Nodup) (hm : ValidMessages msgs) (hp : msgs.Perm msgs') :
    (receive (create 0 active n req) msgs).map done = (receive (create 0 active n req) msgs').map done := by
  obtain ⟨s, h1, h2⟩ := C29_done active n req msgs hv hn hm
  obtain ⟨s', h1', h2'⟩ := C29_done active n req msgs' hv hn (fun q hq => hm q (hp.mem_iff.2 hq))
  rw [h1, h1']
  simp only [Option.map_some, Option.some.injEq]
  have : Complete n req msgs ↔ Complete n req msgs' := by
    unfold Complete; simp only [hp.mem_iff]
  rw [Bool.eq_iff_iff, h2, h2', this]

/-- **C29 (requested types).**  `Contains` answers for exactly the requested pairs, on every processor. -/
theorem C29_contains (rank active n : Nat) (req : List (Int × Int)) (t l : Int) (hv : ValidRequest req)
    (hl : ValidLocation l) : contains (create rank active n req) t l = true ↔ (t, l) ∈ req := by
  unfold contains
  rw [find_create]
  constructor
  · intro h
    obtain ⟨m, hp⟩ := Option.isSome_iff_exists.1 h
    obtain ⟨q, hq, hk⟩ := position_lt hp
    have hmem := List.mem_of_getElem? hq
    have := pairKey_inj (hv q hmem) hl hk
    rw [← this.1, ← this.2]; exact hmem
  · intro h
    rw [position, List.findIdx?_isSome, List.any_eq_true]
    exact ⟨(t, l), h, by simp⟩

/-- Why distinctness is needed: if a pair is requested twice and there is at least one patch, completion is never
reported, whatever arrives. -/
theorem C29_duplicate_never_done (active n : Nat) (req : List (Int × Int)) (msgs : List (Int × Int × Int))
    (hn : ¬ req.Nodup) (hpos : 0 < n) :
    ∃ s, receive (create 0 active n req) msgs = some s ∧ done s = false := by
  obtain ⟨s, acc, h1, h2, h3⟩ := inv_receive msgs (inv_create active n req)
  refine ⟨s, h1, ?_⟩
  rw [← Bool.not_eq_true, inv_done h2]
  intro h
  apply hn
  rw [List.nodup_iff_getElem?_ne_getElem?]
  intro i j hij hj e
  rcases (h3 0 j).1 (h j hj 0 hpos) with h | ⟨-, q, -, -, hp⟩
  · simp at h
  · obtain ⟨hj', h1, h2⟩ := List.findIdx?_eq_some_iff_getElem.1 hp
    have := h2 i hij
    rw [List.getElem?_eq_getElem (by omega), List.getElem?_eq_getElem hj'] at e
    rw [Option.some.inj e] at this
    simp_all

/-- A processor other than the root waits for nothing: it reports completion at once and refuses every message. -/
theorem C29_not_root (rank active n : Nat) (req : List (Int × Int)) (ix t l : Int) (hr : rank ≠ 0) :
    done (create rank active n req) = true ∧ setReceive (create rank active n req) ix t l = .exc := by
  have h0 : (create rank active n req).counts = [] ∧ (create rank active n req).got = [] := by
    unfold create; rw [if_pos hr]; exact ⟨rfl, rfl⟩
  constructor
  · simp [done, h0.1]
  · unfold setReceive
    cases find (create rank active n req).types (pairKey t l) with
    | none => rfl
    | some m =>
      simp only [h0.2, List.length_nil]
      rw [if_pos (by omega)]

theorem length_build (req : List (Int × Int)) (j : Nat) (map : List (Int × Nat))
    (h : ∀ q ∈ req, find map (pairKey q.1 q.2) = none) (hn : (req.map fun q => pairKey q.1 q.2).Nodup) :
    (buildTypes req j map).length = map.length + req.length := by
  induction req generalizing j map with
  | nil => simp [buildTypes]
  | cons q req ih =>
    obtain ⟨t, l⟩ := q
    simp only [List.map_cons, List.nodup_cons] at hn
    have h0 := h (t, l) (by simp)
    simp only at h0
    simp only [buildTypes]
    rw [ih]
    · simp only [insertNew, h0, List.length_append, List.length_cons, List.length_nil]; omega
    · intro q hq
      rw [find_insertNew, h q (by simp [hq])]
      have : pairKey t l ≠ pairKey q.1 q.2 := fun e => hn.1 (List.mem_map.2 ⟨q, hq, e.symm⟩)
      simp [this]
    · exact hn.2

/-- Take `k` send requests. -/
def takeSends : Nat → Status → Res (List Nat × Status)
  | 0, s => .ok ([], s)
  | k + 1, s => (nextSend s).bind fun r => (takeSends k r.2).bind fun rest => .ok (r.1 :: rest.1, rest.2)

theorem takeSends_ok (k : Nat) (s : Status) (h : s.sendNext + k ≤ s.sendTotal) :
    takeSends k s = .ok ((List.range' s.sendNext k), { s with sendNext := s.sendNext + k }) := by
  induction k generalizing s with
  | zero => rfl
  | succ k ih =>
    simp only [takeSends, nextSend]
    rw [if_neg (by omega)]
    simp only [Res.bind]
    rw [ih _ (by simp only; omega)]
    simp only [List.range'_succ, Nat.add_assoc, Nat.add_comm 1 k]

/-- **C29 (send requests).**  Each processor can take exactly one send request per active patch and requested pair,
each a different one; asking for one more is refused. -/
theorem C29_sends (rank active n : Nat) (req : List (Int × Int)) (hv : ValidRequest req) (hn : req.Nodup) (k : Nat) :
    (k ≤ active * req.length → ∃ s, takeSends k (create rank active n req) = .ok (List.range k, s)) ∧
    (∀ s, takeSends (active * req.length) (create rank active n req) = .ok (List.range (active * req.length), s) →
      nextSend s = .exc) := by
  have hkey : (req.map fun q => pairKey q.1 q.2).Nodup := by
    refine List.Nodup.map_on ?_ hn
    intro a ha b hb e
    have := pairKey_inj (hv a ha) (hv b hb) e
    exact Prod.ext this.1 this.2
  have hlen := length_build req 0 [] (by intro q _; rfl) hkey
  have ht : (create rank active n req).sendTotal = active * req.length := by
    unfold create
    simp only [List.length_nil, Nat.zero_add] at hlen
    split <;> simp [hlen]
  have h0 : (create rank active n req).sendNext = 0 := by unfold create; split <;> rfl
  constructor
  · intro hk
    have h := takeSends_ok k (create rank active n req) (by omega)
    rw [h0, ← List.range_eq_range'] at h
    exact ⟨_, h⟩
  · intro s hs
    rw [takeSends_ok _ _ (by omega)] at hs
    simp only [Res.ok.injEq, Prod.mk.injEq] at hs
    unfold nextSend
    rw [← hs.2, if_pos (by simp only; omega)]

/-- Two patches, two requested pairs: with a duplicate, an unknown type and a patch out of range among the messages. -/
example : (receive (create 0 1 2 [(0, 0), (11, 3)]) [(1, 0, 0), (0, 11, 3), (1, 0, 0), (7, 0, 0), (0, 5, 0), (0, 0, 0)]).map
    done = some false := by decide
example : (receive (create 0 1 2 [(0, 0), (11, 3)]) [(1, 0, 0), (0, 11, 3), (1, 0, 0), (7, 0, 0), (0, 5, 0), (0, 0, 0),
    (1, 11, 3)]).map done = some true := by decide
example : ValidRequest [(0, 0), (11, 3)] ∧ [((0 : Int), (0 : Int)), (11, 3)].Nodup := by
  refine ⟨?_, by decide⟩
  intro q hq
  simp only [List.mem_cons, List.not_mem_nil, or_false] at hq
  rcases hq with rfl | rfl <;> simp [ValidLocation]

end Verif.Consol
