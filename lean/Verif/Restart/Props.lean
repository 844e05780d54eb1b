/-
C96: restart files.
-/
import Verif.Restart.Lemmas2

namespace Verif.Restart

open Verif.TimeObj

/-! ### An example -/

/-- Three patches with containers of different lengths. -/
def exL : Layout := ⟨4, fun _ => 2, fun _ => 3, fun _ => 3, fun _ _ _ => 6, fun _ _ i => 5 + i⟩

def exW : World :=
  ⟨⟨1999, 11, 29, 3600, 5, .noLeap, .fixed⟩, [1, 2, 3, 4], [5, 6], fun i => indexBytes i ++ [7, 8],
    fun i => indexBytes i ++ List.replicate (1 + i) 9⟩

theorem exFits : Fits exL exW := by
  constructor
  · rfl
  · rfl
  · decide
  · decide
  · rfl
  · exact fun i _ => ⟨rfl, (by decide : (6 : Nat) < 2147483648), _, rfl⟩
  · intro i hi
    have hi' : i < 3 := hi
    refine ⟨?_, ?_, _, rfl⟩
    · change (indexBytes i ++ List.replicate (1 + i) 9).length = 5 + i
      rw [List.length_append, List.length_replicate]
      change 4 + (1 + i) = 5 + i
      omega
    · change (indexBytes i ++ List.replicate (1 + i) 9).length < 2147483648
      rw [List.length_append, List.length_replicate]
      change 4 + (1 + i) < 2147483648
      omega
  · refine ⟨⟨?_, ?_⟩, ⟨?_, ?_⟩, ⟨?_, ?_⟩, ⟨?_, ?_⟩, ⟨?_, ?_⟩⟩ <;> decide

/-! ### Round trip -/

/-- C96: what a run writes is what a run reads.  For any run whose data have the shape its grid prescribes, on any
number of processes none of which is idle, in whatever order the messages arrive at the root: a file is written; and
reading it, on any number of processes (also more than there are patches), gives on every process the time, the
parameters and the table that were written, and exactly its share of the patches, in order, with both containers as
they were written. -/
theorem C96_roundtrip (L : Layout) (w : World) (h : Fits L w) (procs : Nat) (hp : 0 < procs)
    (hp' : procs ≤ L.count w.table) (arrive : List Msg → List Msg) (ha : AnyOrder arrive) :
    ∃ F, output L w procs true 0 arrive = .ok F ∧
      ∀ procs' rank junk old, 0 < procs' → junk.length = 4 → old.length = L.paramSize →
        input L procs' rank junk old F = .ok ⟨w.time, w.params, w.table,
          ((List.range (L.count w.table)).filter fun i => i % procs' = rank).map fun i => (i, w.geo i, w.act i)⟩ := by
  refine ⟨_, output_ok L w h procs hp hp' arrive ha, ?_⟩
  intro procs' rank junk old hp2 hj ho
  have hle : headerSize L w ≤ (body w (L.count w.table)).length := by
    rw [length_body L w h]; exact geoPlace_le L w _
  have := input_cut L w h procs' rank hp2 junk old hj ho (body w (L.count w.table)).length hle
  rw [List.take_length] at this
  have hmap : (((List.range (L.count w.table)).filter fun i => i % procs' = rank).map fun i =>
        (i, torn (body w (L.count w.table)).length (geoPlace L w i) i (w.geo i),
          torn (body w (L.count w.table)).length (actPlace L w i) i (w.act i))) =
      ((List.range (L.count w.table)).filter fun i => i % procs' = rank).map fun i => (i, w.geo i, w.act i) := by
    apply List.map_congr_left
    intro i hi
    have hi' : i < L.count w.table := by
      have := (List.mem_filter.mp hi).1
      exact List.mem_range.mp this
    have h1 : geoPlace L w i + (w.geo i).length ≤ (body w (L.count w.table)).length := place_end L w h _ i 0 hi'
    have h2 : actPlace L w i + (w.act i).length ≤ (body w (L.count w.table)).length := place_end L w h _ i 1 hi'
    rw [torn_whole _ _ _ _ h1, torn_whole _ _ _ _ h2]
  rw [this, hmap]

example : ∃ F, output exL exW 2 true 0 List.reverse = .ok F ∧
    ∀ procs' rank junk old, 0 < procs' → junk.length = 4 → old.length = exL.paramSize →
      input exL procs' rank junk old F = .ok ⟨exW.time, exW.params, exW.table,
        ((List.range 3).filter fun i => i % procs' = rank).map fun i => (i, exW.geo i, exW.act i)⟩ :=
  C96_roundtrip exL exW exFits 2 (by omega) (by decide) List.reverse (fun l => List.reverse_perm l)

/-- C96: the file is the same for every number of processes and every order of arrival: the check number, the time,
the parameters, the table, then for every patch in order its two containers, and nothing else. -/
theorem C96_same_file (L : Layout) (w : World) (h : Fits L w) :
    ∃ F : Bytes, (∀ procs arrive, 0 < procs → procs ≤ L.count w.table → AnyOrder arrive →
        output L w procs true 0 arrive = .ok F) ∧
      F.take 4 = [192, 157, 2, 0] ∧ (F.drop 32).take L.paramSize = w.params ∧
      (F.drop (32 + L.paramSize)).take (L.tableSize w.params) = w.table ∧
      F.drop (headerSize L w) = (List.range (L.count w.table)).flatMap (fun i => w.geo i ++ w.act i) := by
  refine ⟨_, fun procs arrive hp hp' ha => output_ok L w h procs hp hp' arrive ha, ?_⟩
  have hb : ∀ n, body w n = header w ++ (List.range n).flatMap (fun i => w.geo i ++ w.act i) := by
    intro n
    induction n with
    | zero => simp [body]
    | succ n ih =>
      rw [body, ih, List.range_succ, List.flatMap_append]
      simp only [List.append_assoc, List.flatMap_cons, List.flatMap_nil, List.append_nil]
  have hl := length_header L w h
  rw [hb]
  refine ⟨?_, ?_, ?_, ?_⟩
  · unfold header
    simp only [List.append_assoc]
    have e : leBytes check = [192, 157, 2, 0] := by decide +kernel
    rw [e]; rfl
  · unfold header
    simp only [List.append_assoc]
    rw [← List.append_assoc, show 32 = (leBytes check ++ timeBytes w.time).length by
      rw [List.length_append, length_leBytes, length_timeBytes], List.drop_left, ← h.params, List.take_left]
  · unfold header
    simp only [List.append_assoc]
    rw [← List.append_assoc, ← List.append_assoc, show 32 + L.paramSize =
      (leBytes check ++ timeBytes w.time ++ w.params).length by
        rw [List.length_append, List.length_append, length_leBytes, length_timeBytes, h.params],
      List.drop_left, ← h.table, List.take_left]
  · rw [← hl, List.drop_left]

example : ∃ F : Bytes, (∀ procs arrive, 0 < procs → procs ≤ 3 → AnyOrder arrive →
    output exL exW procs true 0 arrive = .ok F) ∧ F.take 4 = [192, 157, 2, 0] := by
  obtain ⟨F, h1, h2, _⟩ := C96_same_file exL exW exFits
  exact ⟨F, h1, h2⟩

/-! ### What is refused -/

theorem read_good (s : Stream) (n : Nat) (old : Bytes) (h : (s.read n old).2.good = true) :
    s.good = true ∧ n ≤ s.file.length - s.pos ∧ (s.read n old).1 = (s.file.drop s.pos).take n ++ old.drop n ∧
      (s.read n old).2.file = s.file ∧ (s.read n old).2.pos = s.pos + n := by
  unfold Stream.read at *
  by_cases hg : s.good = true
  · rw [if_pos hg] at h ⊢
    simp only [List.length_take, List.length_drop, decide_eq_true_eq] at h ⊢
    have e : min n (s.file.length - s.pos) = n := by omega
    rw [e]
    exact ⟨hg, by omega, by simp⟩
  · rw [if_neg hg] at h
    exact absurd h hg

theorem leInt_check (a b c d : UInt8) (h : leInt [a, b, c, d] = 171456) : a = 192 ∧ b = 157 ∧ c = 2 ∧ d = 0 := by
  unfold leInt at h
  simp only [List.getElem?_cons_zero, List.getElem?_cons_succ, Option.getD_some] at h
  have ha := a.toNat_lt
  have hb := b.toNat_lt
  have hc := c.toNat_lt
  have hd := d.toNat_lt
  have key : a.toNat = 192 ∧ b.toNat = 157 ∧ c.toNat = 2 ∧ d.toNat = 0 := by
    split_ifs at h <;> omega
  obtain ⟨k1, k2, k3, k4⟩ := key
  exact ⟨UInt8.toNat_inj.mp k1, UInt8.toNat_inj.mp k2, UInt8.toNat_inj.mp k3, UInt8.toNat_inj.mp k4⟩

/-- C96: a file is accepted only if it begins with the check number and holds a whole time, the whole parameters and
the whole table that these parameters prescribe: files of another kind, and files that were cut within that part, are
refused, whatever was in memory before. -/
theorem C96_accepted_only (L : Layout) (procs rank : Nat) (junk old file : Bytes) (r : Loaded)
    (hj : junk.length = 4) (ho : old.length = L.paramSize)
    (h : input L procs rank junk old file = .ok r) :
    file.take 4 = [192, 157, 2, 0] ∧ 32 + L.paramSize + L.tableSize r.params ≤ file.length ∧
      r.params = (file.drop 32).take L.paramSize ∧
      r.table = (file.drop (32 + L.paramSize)).take (L.tableSize r.params) ∧
      timeOf ((file.drop 4).take 28) = some r.time := by
  unfold input at h
  generalize e1 : (Stream.mk file 0 true).read 4 junk = x1 at h
  obtain ⟨c, s1⟩ := x1
  simp only at h
  split_ifs at h with hf
  unfold inputRest at h
  generalize e2 : s1.read timeSize (timeBytes zeroTime) = x2 at h
  obtain ⟨tb, s2⟩ := x2
  simp only at h
  generalize e3 : s2.read L.paramSize old = x3 at h
  obtain ⟨params, s3⟩ := x3
  simp only at h
  generalize e4 : s3.read (L.tableSize params) (List.replicate (L.tableSize params) 0) = x4 at h
  obtain ⟨table, s4⟩ := x4
  simp only at h
  by_cases hc : L.count table = 0
  · rw [if_pos hc] at h; exact absurd h (by simp)
  rw [if_neg hc] at h
  generalize gather (L.count table) (fun ix c => if c = 0 then L.geoSize params table ix else L.actSize params table ix)
    (L.rows params) procs procs = R at h
  cases R with
  | ok ts =>
    simp only at h
    split_ifs at h with hg
    generalize ht : timeOf tb = T at h
    cases T with
    | none => exact absurd h (by simp)
    | some t =>
      obtain rfl := Res.ok.inj h
      simp only at e1 e2 e3 e4 ht ⊢
      have hg' : s4.good = true := by simpa using hg
      have q4 := read_good s3 _ (List.replicate (L.tableSize params) 0) (by rw [e4]; exact hg')
      have q3 := read_good s2 _ old (by rw [e3]; exact q4.1)
      have q2 := read_good s1 _ (timeBytes zeroTime) (by rw [e2]; exact q3.1)
      have q1 := read_good ⟨file, 0, true⟩ 4 junk (by rw [e1]; exact q2.1)
      rw [e4] at q4; rw [e3] at q3; rw [e2] at q2; rw [e1] at q1
      simp only at q1 q2 q3 q4
      obtain ⟨_, a2, a3, a4, a5⟩ := q1
      obtain ⟨_, b2, b3, b4, b5⟩ := q2
      obtain ⟨_, c2, c3, c4, c5⟩ := q3
      obtain ⟨_, d2, d3, _, _⟩ := q4
      rw [List.drop_of_length_le (l := junk) (by omega), List.append_nil] at a3
      rw [List.drop_of_length_le (l := timeBytes zeroTime) (by rw [length_timeBytes]; decide), List.append_nil] at b3
      rw [List.drop_of_length_le (l := old) (by omega), List.append_nil] at c3
      rw [List.drop_of_length_le (l := List.replicate _ _) (by simp), List.append_nil] at d3
      have p1 : s1.pos = 4 := by omega
      have p2 : s2.pos = 32 := by rw [b5, p1]; rfl
      have p3 : s3.pos = 32 + L.paramSize := by omega
      have f3 : s3.file = file := by rw [c4, b4, a4]
      have f2 : s2.file = file := by rw [b4, a4]
      rw [f3, p3] at d2 d3
      rw [f2, p2] at c2 c3
      rw [a4, p1] at b2 b3
      rw [List.drop_zero] at a3
      have hts : timeSize = 28 := rfl
      rw [hts] at b2 b3
      refine ⟨?_, by omega, c3, d3, ?_⟩
      · have hlen : c.length = 4 := by rw [a3, List.length_take]; omega
        have hck : leInt c = 171456 := by
          have : isForeign (leInt c) = false := by simpa using hf
          unfold isForeign at this
          have := of_decide_eq_false this
          exact not_not.mp this
        rw [← a3]
        match c, hlen, hck with
        | [x, y, z, u], _, hck =>
          obtain ⟨rfl, rfl, rfl, rfl⟩ := leInt_check x y z u hck
          rfl
      · rw [← b3]; exact ht
  | exc => exact absurd h (by simp)
  | ub => exact absurd h (by simp)
  | hang => exact absurd h (by simp)

/-- The file of the example is accepted. -/
example : ∃ F r, input exL 2 1 [0, 0, 0, 0] [0, 0, 0, 0] F = .ok r ∧ r.patches = [(1, exW.geo 1, exW.act 1)] := by
  obtain ⟨F, _, h⟩ := C96_roundtrip exL exW exFits 1 (by omega) (by decide) id (fun l => List.Perm.refl l)
  exact ⟨F, _, h 2 1 _ _ (by omega) rfl rfl, rfl⟩

/-- C96: a manager without an open file, and a second output into the same file, are refused. -/
theorem C96_one_output (L : Layout) (w : World) (procs : Nat) (arrive : List Msg → List Msg) (ready : Bool)
    (already : Nat) (h : ready = false ∨ 0 < already) : output L w procs ready already arrive = .exc := by
  unfold output
  rcases h with h | h
  · rw [if_pos h]
  · split_ifs with h1 h2
    · rfl
    · rfl
    · omega

example : output exL exW 2 false 0 id = .exc ∧ output exL exW 2 true 1 id = .exc :=
  ⟨C96_one_output _ _ _ _ _ _ (Or.inl rfl), C96_one_output _ _ _ _ _ _ (Or.inr (by omega))⟩

/-- C96 (false part): with more processes than patches no restart file can be written, although such a run is
otherwise allowed: a process without patches throws. -/
theorem C96_idle_process_false (L : Layout) (w : World) (h : Fits L w) (procs : Nat) (hp : L.count w.table < procs)
    (arrive : List Msg → List Msg) : output L w procs true 0 arrive = .exc := by
  have hpos := h.pos
  obtain ⟨ts, ets, _, _⟩ := gather_ok (L.count w.table) (L.count w.table) procs (le_refl _)
    (fun ix c => (w.container ix c).length) procs
  unfold output
  rw [if_neg (by simp), if_neg (by simp)]
  simp only [h.rows]
  rw [if_neg (by omega), ets]
  simp only [allSends_exc w (L.count w.table) procs hpos hp (procs - 1) (by omega) (by omega)]

example : output exL exW 4 true 0 id = .exc := C96_idle_process_false exL exW exFits 4 (by decide) id

/-! ### Grids with unset boxes -/

theorem fillSizes_lt (count : Nat) (size : Nat → Nat → Nat) (l : List Nat) (t t' : Nat → Nat → Int)
    (h : fillSizes count size l t = .ok t') : ∀ i ∈ l, i < count := by
  induction l generalizing t with
  | nil => simp
  | cons a l ih =>
    unfold fillSizes at h
    split_ifs at h with h1 h2
    intro i hi
    rcases List.mem_cons.mp hi with rfl | hi
    · omega
    · exact ih _ h i hi

theorem gather_lt (count : Nat) (size : Nat → Nat → Nat) (rows procs n : Nat) (ts : List (Nat → Nat → Int))
    (h : gather count size rows procs n = .ok ts) :
    ∀ r, r < n → ∀ i ∈ (Patch.distribute rows procs r).active, i < count := by
  induction n generalizing ts with
  | zero => intro r hr; omega
  | succ n ih =>
    unfold gather at h
    split at h
    · rename_i ts0 e0
      split at h
      · rename_i t e
        intro r hr
        by_cases hrn : r = n
        · rw [hrn]; exact fillSizes_lt _ _ _ _ _ e
        · exact ih ts0 e0 r (by omega)
      all_goals exact absurd h (by simp)
    · rename_i hno
      exact absurd h (hno ts)

/-- C96 (false part): where the table has room for more patches than are set, and the patches are dealt out over the
whole table, neither writing nor reading succeeds. -/
theorem C96_unset_boxes_false (L : Layout) (w : World) (procs : Nat) (hp : 0 < procs)
    (hr : L.count w.table < L.rows w.params) (ready : Bool) (already : Nat) (arrive : List Msg → List Msg) (F : Bytes) :
    output L w procs ready already arrive ≠ .ok F := by
  intro h
  unfold output at h
  split_ifs at h with h1 h2
  simp only at h
  split_ifs at h with h3
  split at h
  · rename_i ts e
    have := gather_lt _ _ _ _ _ _ e (L.count w.table % procs) (Nat.mod_lt _ hp) (L.count w.table)
      ((mem_active _ _ _ _).mpr ⟨hr, rfl⟩)
    omega
  all_goals exact absurd h (by simp)

/-- C96 (false part): with one box unset the sizes are even written beyond the end of their table: undefined
behaviour instead of an error. -/
theorem C96_unset_box_ub (L : Layout) (w : World) (procs : Nat) (hp : 0 < procs) (hpos : 0 < L.count w.table)
    (hr : L.rows w.params = L.count w.table + 1) (arrive : List Msg → List Msg) :
    output L w procs true 0 arrive = .ub := by
  have key : ∀ n, (n ≤ L.count w.table % procs →
        ∃ ts, gather (L.count w.table) (fun ix c => (w.container ix c).length) (L.rows w.params) procs n = .ok ts) ∧
      (L.count w.table % procs < n →
        gather (L.count w.table) (fun ix c => (w.container ix c).length) (L.rows w.params) procs n = .ub) := by
    intro n
    induction n with
    | zero => exact ⟨fun _ => ⟨[], rfl⟩, fun h => by omega⟩
    | succ n ih =>
      unfold gather
      constructor
      · intro hn
        obtain ⟨ts, e⟩ := ih.1 (by omega)
        obtain ⟨t, et, _⟩ := fillSizes_ok (L.count w.table) (fun ix c => (w.container ix c).length)
          (Patch.distribute (L.rows w.params) procs n).active (by
            intro i hi
            have := (mem_active _ _ _ _).mp hi
            by_contra hc
            obtain rfl : i = L.count w.table := by omega
            omega) (fun _ _ => 0)
        exact ⟨t :: ts, by rw [e]; simp only [et]⟩
      · intro hn
        rcases Nat.lt_or_ge (L.count w.table % procs) n with hlt | hge
        · rw [ih.2 hlt]
        · obtain ⟨ts, e⟩ := ih.1 hge
          obtain rfl : n = L.count w.table % procs := by omega
          rw [e]
          simp only
          rw [fillSizes_bad _ _ _ (by
            intro i hi
            have := (mem_active _ _ _ _).mp hi
            omega) ((mem_active _ _ _ _).mpr ⟨by omega, rfl⟩)]
  have e := (key procs).2 (Nat.mod_lt _ hp)
  unfold output
  rw [if_neg (by simp), if_neg (by simp)]
  simp only
  rw [if_neg (by omega), e]

example : output { exL with rows := fun _ => 4 } exW 2 true 0 id = .ub :=
  C96_unset_box_ub { exL with rows := fun _ => 4 } exW 2 (by omega) (by decide) rfl id

/-! ### Large containers -/

theorem putOwn_size (w : World) (size : Nat → Nat → Int) (ref : Nat) (l : List Nat) (f : Bytes) (i c : Nat) (hi : i ∈ l)
    (hc : c < 2) (hs : size i c < 0) : putOwn w size ref l f = .ub := by
  induction l generalizing f with
  | nil => simp at hi
  | cons a l ih =>
    have hput : ∀ f j c' m, put size ref f j c' m = .ub ∨ (0 ≤ size j c' ∧ ∃ f', put size ref f j c' m = .ok f') := by
      intro f j c' m
      unfold put
      split_ifs with h
      · exact Or.inl rfl
      · exact Or.inr ⟨by omega, _, rfl⟩
    unfold putOwn
    rcases hput f a 0 (w.container a 0) with h0 | ⟨h0, f0, e0⟩
    · rw [h0]
    · rw [e0]
      simp only
      rcases hput f0 a 1 (w.container a 1) with h1 | ⟨h1, f1, e1⟩
      · rw [h1]
      · simp only [e1]
        refine ih f1 ?_
        rcases List.mem_cons.mp hi with rfl | h
        · rcases (show c = 0 ∨ c = 1 by omega) with rfl | rfl <;> omega
        · exact h

/-- C96 (false part): on one process, a container of two gigabytes or more (up to four) is undefined behaviour: its
size is kept in an `int`. -/
theorem C96_large_container_ub (L : Layout) (w : World) (hpos : 0 < L.count w.table)
    (hr : L.rows w.params = L.count w.table) (i c : Nat) (hi : i < L.count w.table) (hc : c < 2)
    (hbig : 2147483648 ≤ (w.container i c).length ∧ (w.container i c).length < 4294967296)
    (arrive : List Msg → List Msg) : output L w 1 true 0 arrive = .ub := by
  obtain ⟨ts, ets, hl, h⟩ := gather_ok (L.count w.table) (L.count w.table) 1 (le_refl _)
    (fun ix c => (w.container ix c).length) 1
  have hs : maxTable ts i c < 0 := by
    match ts, hl with
    | [t], _ =>
      obtain ⟨r, hr', ht⟩ := h t (by simp)
      have e : maxTable [t] i c = t i c := rfl
      rw [e, ht, if_pos ⟨⟨hi, by omega⟩, hc⟩]
      exact asInt_big _ hbig.1 hbig.2
  unfold output
  rw [if_neg (by simp), if_neg (by simp)]
  simp only [hr]
  rw [if_neg (by omega), ets]
  simp only [show allSends w (L.count w.table) 1 (1 - 1) = .ok [] from rfl]
  rw [putOwn_size w (maxTable ts) _ (Patch.distribute (L.count w.table) 1 0).active (header w) i c
    ((mem_active _ _ _ _).mpr ⟨hi, Nat.mod_one i⟩) hc hs]

example : output ⟨0, fun _ => 0, fun _ => 1, fun _ => 1, fun _ _ _ => 0, fun _ _ _ => 0⟩
    ⟨exW.time, [], [], fun _ => List.replicate 3000000000 0, fun _ => []⟩ 1 true 0 id = .ub := by
  refine C96_large_container_ub _ _ Nat.zero_lt_one rfl 0 0 Nat.zero_lt_one (by omega) ?_ id
  have : (List.replicate 3000000000 (0 : UInt8)).length = 3000000000 := List.length_replicate
  exact ⟨le_of_le_of_eq (by omega) this.symm, lt_of_eq_of_lt this (by omega)⟩

/-! ### Damaged files -/

/-- C96 for files cut at any byte after the table, as a crash while writing on one process leaves them, in part: the
file is accepted; of every container the bytes before the cut are those written, and the others are those of a patch
just created, an index and zeros.  (Missing: the damage is not noticed, see `C96_crash_false`.) -/
theorem C96_cut_partial (L : Layout) (w : World) (h : Fits L w) (procs : Nat) (hp : 0 < procs)
    (hp' : procs ≤ L.count w.table) (arrive : List Msg → List Msg) (ha : AnyOrder arrive) :
    ∃ F, output L w procs true 0 arrive = .ok F ∧
      ∀ procs' rank junk old cut, 0 < procs' → junk.length = 4 → old.length = L.paramSize → headerSize L w ≤ cut →
        input L procs' rank junk old (F.take cut) = .ok ⟨w.time, w.params, w.table,
          ((List.range (L.count w.table)).filter fun i => i % procs' = rank).map fun i =>
            (i, torn cut (geoPlace L w i) i (w.geo i), torn cut (actPlace L w i) i (w.act i))⟩ := by
  refine ⟨_, output_ok L w h procs hp hp' arrive ha, ?_⟩
  intro procs' rank junk old cut hp2 hj ho hc
  exact input_cut L w h procs' rank hp2 junk old hj ho cut hc

/-- C96 is false for damaged files: whatever follows the table, a file is accepted. -/
theorem C96_damage_false (L : Layout) (w : World) (h : Fits L w) (procs : Nat) (hp : 0 < procs)
    (hp' : procs ≤ L.count w.table) (arrive : List Msg → List Msg) (ha : AnyOrder arrive) :
    ∃ F, output L w procs true 0 arrive = .ok F ∧
      ∀ procs' rank junk old tail, 0 < procs' → junk.length = 4 → old.length = L.paramSize →
        ∃ r, input L procs' rank junk old (F.take (headerSize L w) ++ tail) = .ok r ∧ r.time = w.time := by
  refine ⟨_, output_ok L w h procs hp hp' arrive ha, ?_⟩
  intro procs' rank junk old tail hp2 hj ho
  obtain ⟨r, er⟩ := body_prefix w 0 (L.count w.table) (by omega)
  have er' : body w (L.count w.table) = header w ++ r := er
  rw [er', ← length_header L w h, List.take_left]
  obtain ⟨ts, _, e⟩ := input_header L w h procs' rank hp2 junk old tail hj ho
  exact ⟨_, e, rfl⟩

/-- C96 is false for crashes: a run with its file cut short is resumed without a word from a state it never had. -/
theorem C96_crash_false : ∃ (L : Layout) (w : World) (F : Bytes) (cut : Nat) (r : Loaded), Fits L w ∧
    output L w 1 true 0 id = .ok F ∧ cut < F.length ∧ input L 1 0 [0, 0, 0, 0] [0, 0, 0, 0] (F.take cut) = .ok r ∧
    r.patches = [(0, w.geo 0, w.act 0), (1, w.geo 1, indexBytes 1 ++ [0, 0]), (2, indexBytes 2 ++ [0, 0],
      indexBytes 2 ++ [0, 0, 0])] ∧ w.act 1 ≠ indexBytes 1 ++ [0, 0] := by
  obtain ⟨F, e, h⟩ := C96_cut_partial exL exW exFits 1 (by omega) (by decide) id (fun l => List.Perm.refl l)
  have hF := output_ok exL exW exFits 1 (by omega) (by decide) id (fun l => List.Perm.refl l)
  rw [e] at hF
  obtain rfl := Res.ok.inj hF
  refine ⟨exL, exW, _, 58, _, exFits, e, ?_, h 1 0 _ _ 58 (by omega) rfl rfl (by decide), ?_, by decide⟩
  · rw [length_body exL exW exFits]; decide
  · decide +kernel

end Verif.Restart
