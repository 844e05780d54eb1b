/-
Lemmas about restart files.
-/
import Verif.Restart.Spec
import Verif.Patch.PropsDist
import Mathlib.Tactic.Tauto
import Mathlib.Tactic.Linarith

namespace Verif.Restart

open Verif.TimeObj

/-! ### Integers and times -/

theorem u8 (n : Nat) (h : n < 256) : (UInt8.ofNat n).toNat = n := by
  rw [UInt8.toNat_ofNat']; exact Nat.mod_eq_of_lt h

theorem leInt_leBytes (i : Int) (h : IsInt i) (r : Bytes) : leInt (leBytes i ++ r) = i := by
  obtain ⟨h1, h2⟩ := h
  unfold leInt leBytes
  have a0 := u8 (i % 256).toNat (by omega)
  have a1 := u8 (i / 256 % 256).toNat (by omega)
  have a2 := u8 (i / 65536 % 256).toNat (by omega)
  have a3 := u8 (i / 16777216 % 256).toNat (by omega)
  simp only [List.cons_append, List.nil_append, List.getElem?_cons_zero, List.getElem?_cons_succ, Option.getD_some,
    a0, a1, a2, a3]
  split_ifs <;> push_cast <;> omega

theorem length_leBytes (i : Int) : (leBytes i).length = 4 := rfl

theorem leBytes_index (i : Nat) : leBytes (i : Int) = indexBytes i := by
  unfold leBytes indexBytes
  congr 1

theorem length_timeBytes (t : Time) : (timeBytes t).length = 28 := by
  unfold timeBytes; simp only [List.length_append, length_leBytes]

theorem drop_leBytes (i : Int) (r : Bytes) : (leBytes i ++ r).drop 4 = r := rfl

theorem cal_of (c : Calendar) : calOf (calCode c) = some c := by cases c <;> rfl
theorem typ_of (c : TimeType) : typOf (typCode c) = some c := by cases c <;> rfl
theorem cal_int (c : Calendar) : IsInt (calCode c) := by cases c <;> (simp only [IsInt, calCode]; omega)
theorem typ_int (c : TimeType) : IsInt (typCode c) := by cases c <;> (simp only [IsInt, typCode]; omega)

theorem timeOf_of (b : Bytes) (y mo d se us : Int) (c : Calendar) (ty : TimeType)
    (f1 : leInt (b.drop 20) = calCode c) (f2 : leInt (b.drop 24) = typCode ty) (f3 : leInt b = y)
    (f4 : leInt (b.drop 4) = mo) (f5 : leInt (b.drop 8) = d) (f6 : leInt (b.drop 12) = se)
    (f7 : leInt (b.drop 16) = us) : timeOf b = some ⟨y, mo, d, se, us, c, ty⟩ := by
  have e : ∀ y mo d se us, timeOfInts y mo d se us (calCode c) (typCode ty) = some ⟨y, mo, d, se, us, c, ty⟩ := by
    intro y mo d se us
    unfold timeOfInts; rw [cal_of, typ_of]
  rw [← e, ← f1, ← f2, ← f3, ← f4, ← f5, ← f6, ← f7]
  rfl

theorem drop_four (a b : Bytes) (n : Nat) (h : a.length = 4) : (a ++ b).drop (4 + n) = b.drop n := by
  rw [← h, ← List.drop_drop, List.drop_left]

theorem timeOf_timeBytes (t : Time)
    (h : IsInt t.year ∧ IsInt t.month ∧ IsInt t.day ∧ IsInt t.second ∧ IsInt t.usec) :
    timeOf (timeBytes t) = some t := by
  obtain ⟨h1, h2, h3, h4, h5⟩ := h
  have d0 : timeBytes t = leBytes t.year ++ (leBytes t.month ++ (leBytes t.day ++ (leBytes t.second ++ (leBytes t.usec ++
      (leBytes (calCode t.cal) ++ (leBytes (typCode t.typ) ++ [])))))) := by
    unfold timeBytes; simp only [List.append_assoc, List.append_nil]
  rw [d0]
  have i0 := leInt_leBytes _ h1
  have i1 := leInt_leBytes _ h2
  have i2 := leInt_leBytes _ h3
  have i3 := leInt_leBytes _ h4
  have i4 := leInt_leBytes _ h5
  have i5 := leInt_leBytes _ (cal_int t.cal)
  have i6 := leInt_leBytes _ (typ_int t.typ)
  have l0 := length_leBytes t.year
  have l1 := length_leBytes t.month
  have l2 := length_leBytes t.day
  have l3 := length_leBytes t.second
  have l4 := length_leBytes t.usec
  have l5 := length_leBytes (calCode t.cal)
  generalize leBytes t.year = b0 at *
  generalize leBytes t.month = b1 at *
  generalize leBytes t.day = b2 at *
  generalize leBytes t.second = b3 at *
  generalize leBytes t.usec = b4 at *
  generalize leBytes (calCode t.cal) = b5 at *
  generalize leBytes (typCode t.typ) = b6 at *
  apply timeOf_of
  · rw [drop_four _ _ 16 l0, drop_four _ _ 12 l1, drop_four _ _ 8 l2, drop_four _ _ 4 l3, drop_four _ _ 0 l4]
    exact i5 _
  · rw [drop_four _ _ 20 l0, drop_four _ _ 16 l1, drop_four _ _ 12 l2, drop_four _ _ 8 l3, drop_four _ _ 4 l4,
      drop_four _ _ 0 l5]
    exact i6 _
  · exact i0 _
  · rw [drop_four _ _ 0 l0]; exact i1 _
  · rw [drop_four _ _ 4 l0, drop_four _ _ 0 l1]; exact i2 _
  · rw [drop_four _ _ 8 l0, drop_four _ _ 4 l1, drop_four _ _ 0 l2]; exact i3 _
  · rw [drop_four _ _ 12 l0, drop_four _ _ 8 l1, drop_four _ _ 4 l2, drop_four _ _ 0 l3]; exact i4 _

theorem asInt_small (n : Nat) (h : n < 2147483648) : asInt n = n := by
  unfold asInt
  rw [Nat.mod_eq_of_lt (by omega), if_pos h]

theorem asInt_big (n : Nat) (h : 2147483648 ≤ n) (h' : n < 4294967296) : asInt n < 0 := by
  unfold asInt
  rw [Nat.mod_eq_of_lt h', if_neg (by omega)]
  omega

/-! ### The table of sizes -/

/-- Entries of the table filled by one process. -/
theorem fillSizes_ok (count : Nat) (size : Nat → Nat → Nat) (l : List Nat) (hl : ∀ i ∈ l, i < count)
    (t : Nat → Nat → Int) :
    ∃ t', fillSizes count size l t = .ok t' ∧
      ∀ i c, t' i c = if i ∈ l ∧ c < 2 then asInt (size i c) else t i c := by
  induction l generalizing t with
  | nil => exact ⟨t, rfl, fun i c => by simp⟩
  | cons ix rest ih =>
    have hx := hl ix (by simp)
    unfold fillSizes
    rw [if_neg (by omega), if_neg (by omega)]
    obtain ⟨t', e, h⟩ := ih (fun i hi => hl i (by simp [hi]))
      (fun i c => if i = ix ∧ c < 2 then asInt (size ix c) else t i c)
    refine ⟨t', e, fun i c => ?_⟩
    rw [h]
    by_cases h1 : i ∈ rest ∧ c < 2
    · rw [if_pos h1, if_pos ⟨by simp [h1.1], h1.2⟩]
    · rw [if_neg h1]
      by_cases h2 : i = ix ∧ c < 2
      · rw [if_pos h2, if_pos ⟨by simp [h2.1], h2.2⟩, h2.1]
      · rw [if_neg h2, if_neg]
        rintro ⟨h3, h4⟩
        rcases List.mem_cons.mp h3 with h3 | h3
        · exact h2 ⟨h3, h4⟩
        · exact h1 ⟨h3, h4⟩

theorem fillSizes_bad (count : Nat) (size : Nat → Nat → Nat) (l : List Nat) (hl : ∀ i ∈ l, i ≤ count)
    (hc : count ∈ l) (t : Nat → Nat → Int) : fillSizes count size l t = .ub := by
  induction l generalizing t with
  | nil => simp at hc
  | cons ix rest ih =>
    have hx := hl ix (by simp)
    unfold fillSizes
    rw [if_neg (by omega)]
    by_cases h : ix = count
    · rw [if_pos h]
    · rw [if_neg h]
      have hc' : count ∈ rest := by
        rcases List.mem_cons.mp hc with e | e
        · exact absurd e.symm h
        · exact e
      exact ih (fun i hi => hl i (by simp [hi])) hc' _

theorem mem_active (rows procs r i : Nat) :
    i ∈ (Patch.distribute rows procs r).active ↔ i < rows ∧ i % procs = r := by
  rw [Patch.distribute_eq]; simp

theorem gather_ok (count rows procs : Nat) (hr : rows ≤ count) (size : Nat → Nat → Nat) (n : Nat) :
    ∃ ts, gather count size rows procs n = .ok ts ∧ ts.length = n ∧
      ∀ t ∈ ts, ∃ r, r < n ∧ ∀ i c, t i c = if (i < rows ∧ i % procs = r) ∧ c < 2 then asInt (size i c) else 0 := by
  induction n with
  | zero => exact ⟨[], rfl, rfl, by simp⟩
  | succ n ih =>
    obtain ⟨ts, e, hl, h⟩ := ih
    obtain ⟨t, e', h'⟩ := fillSizes_ok count size (Patch.distribute rows procs n).active
      (fun i hi => by have := (mem_active _ _ _ _).mp hi; omega) (fun _ _ => 0)
    refine ⟨t :: ts, ?_, by simp [hl], ?_⟩
    · unfold gather; rw [e]; simp only [e']
    · intro u hu
      rcases List.mem_cons.mp hu with rfl | hu
      · exact ⟨n, by omega, fun i c => by rw [h']; simp only [mem_active]⟩
      · obtain ⟨r, hr, h2⟩ := h u hu
        exact ⟨r, by omega, h2⟩

/-- The largest entry is an entry and no entry is larger. -/
theorem maxTable_spec (ts : List (Nat → Nat → Int)) (hne : ts ≠ []) (i c : Nat) :
    (∃ t ∈ ts, maxTable ts i c = t i c) ∧ ∀ t ∈ ts, t i c ≤ maxTable ts i c := by
  induction ts with
  | nil => exact absurd rfl hne
  | cons t ts ih =>
    cases ts with
    | nil => simp [maxTable]
    | cons u us =>
      obtain ⟨⟨v, hv, ev⟩, h2⟩ := ih (by simp)
      unfold maxTable
      constructor
      · rcases max_choice (t i c) (maxTable (u :: us) i c) with h | h
        · exact ⟨t, by simp, h⟩
        · exact ⟨v, List.mem_cons_of_mem _ hv, by rw [h, ev]⟩
      · intro x hx
        rcases List.mem_cons.mp hx with rfl | hx
        · exact le_max_left _ _
        · exact le_trans (h2 x hx) (le_max_right _ _)

/-- All tables with a non-negative entry from one process: the owner's entry counts. -/
theorem maxTable_gather (count rows procs : Nat) (hr : rows ≤ count) (hp : 0 < procs) (size : Nat → Nat → Nat)
    (ts : List (Nat → Nat → Int)) (e : gather count size rows procs procs = .ok ts) (i c : Nat) (hi : i < rows)
    (hc : c < 2) (hs : size i c < 2147483648) : maxTable ts i c = size i c := by
  obtain ⟨ts', e', hl, h⟩ := gather_ok count rows procs hr size procs
  rw [e] at e'
  obtain rfl : ts = ts' := by injection e'
  have key : ∀ n ts, gather count size rows procs n = .ok ts → ∀ r, r < n → ∃ t ∈ ts, ∀ i c,
      t i c = if (i < rows ∧ i % procs = r) ∧ c < 2 then asInt (size i c) else 0 := by
    intro n
    induction n with
    | zero => intro ts _ r hr; omega
    | succ n ih =>
      intro ts e r hr'
      unfold gather at e
      obtain ⟨ts0, e0, -, -⟩ := gather_ok count rows procs hr size n
      obtain ⟨t, et, ht⟩ := fillSizes_ok count size (Patch.distribute rows procs n).active
        (fun i hi => by have := (mem_active _ _ _ _).mp hi; omega) (fun _ _ => 0)
      rw [e0] at e
      simp only [et] at e
      obtain rfl : t :: ts0 = ts := by injection e
      by_cases h : r = n
      · exact ⟨t, by simp, fun i c => by rw [ht]; simp only [mem_active, h]⟩
      · obtain ⟨u, hu, hu'⟩ := ih ts0 e0 r (by omega)
        exact ⟨u, List.mem_cons_of_mem _ hu, hu'⟩
  have hne : ts ≠ [] := by intro h0; rw [h0] at hl; simp at hl; omega
  obtain ⟨⟨t, ht, et⟩, hmax⟩ := maxTable_spec ts hne i c
  obtain ⟨u, hu, eu⟩ := key procs ts e (i % procs) (Nat.mod_lt _ hp)
  have h1 := hmax u hu
  rw [eu, if_pos ⟨⟨hi, rfl⟩, hc⟩, asInt_small _ hs] at h1
  obtain ⟨r, _, hr2⟩ := h t ht
  have h2 := hr2 i c
  rw [asInt_small _ hs] at h2
  rw [et] at h1 ⊢
  split_ifs at h2 <;> omega

/-! ### Places -/

theorem geoPlace_le (L : Layout) (w : World) (i : Nat) : headerSize L w ≤ geoPlace L w i := by
  induction i with
  | zero => exact le_refl _
  | succ i ih => unfold geoPlace; omega

theorem geoPlace_mono (L : Layout) (w : World) (i j : Nat) (h : i < j) :
    actPlace L w i + (w.act i).length ≤ geoPlace L w j := by
  induction j with
  | zero => omega
  | succ j ih =>
    have e : geoPlace L w (j + 1) = geoPlace L w j + (w.geo j).length + (w.act j).length := rfl
    unfold actPlace at *
    rw [e]
    rcases Nat.lt_or_ge i j with h' | h'
    · have := ih h'; omega
    · obtain rfl : i = j := by omega
      omega

/-- The computed offsets are the places. -/
theorem loc_eq (L : Layout) (w : World) (size : Nat → Nat → Int) (n : Nat)
    (hs : ∀ i, i < n → size i 0 = (w.geo i).length ∧ size i 1 = (w.act i).length) (i : Nat) (hi : i < n) :
    offset size (headerSize L w) i 0 = geoPlace L w i ∧ offset size (headerSize L w) i 1 = actPlace L w i := by
  induction i with
  | zero =>
    obtain ⟨a, b⟩ := hs 0 hi
    unfold offset loc actPlace
    simp only [geoPlace, if_true, if_neg (show ¬ (1 : Nat) = 0 by omega), a]
    constructor
    · exact add_zero _
    · push_cast; rfl
  | succ i ih =>
    obtain ⟨ih1, ih2⟩ := ih (by omega)
    obtain ⟨a, b⟩ := hs (i + 1) hi
    obtain ⟨a', b'⟩ := hs i (by omega)
    unfold offset at *
    have e1 : loc size (i + 1) 0 = loc size i 1 + size i 1 := by simp [loc]
    have e2 : loc size (i + 1) 1 = loc size i 1 + size i 1 + size (i + 1) 0 := by simp [loc]
    rw [e1, e2, a, b']
    unfold actPlace at *
    simp only [geoPlace]
    push_cast at *
    constructor <;> linarith

/-! ### The file -/

/-- The whole file. -/
def body (w : World) : Nat → Bytes
  | 0 => header w
  | n + 1 => body w n ++ w.geo n ++ w.act n

theorem length_header (L : Layout) (w : World) (h : Fits L w) : (header w).length = headerSize L w := by
  unfold header headerSize
  simp only [List.length_append, length_leBytes, length_timeBytes, h.params, h.table]

theorem length_body (L : Layout) (w : World) (h : Fits L w) (n : Nat) : (body w n).length = geoPlace L w n := by
  induction n with
  | zero => exact length_header L w h
  | succ n ih => simp only [body, List.length_append, ih, geoPlace]

theorem body_prefix (w : World) (i n : Nat) (h : i ≤ n) : ∃ r, body w n = body w i ++ r := by
  induction n with
  | zero => obtain rfl : i = 0 := by omega
            exact ⟨[], by simp⟩
  | succ n ih =>
    rcases Nat.lt_or_ge i (n + 1) with h' | h'
    · obtain ⟨r, e⟩ := ih (by omega)
      exact ⟨r ++ w.geo n ++ w.act n, by simp only [body, e, List.append_assoc]⟩
    · obtain rfl : i = n + 1 := by omega
      exact ⟨[], by simp⟩

/-- Where a container begins. -/
def place (L : Layout) (w : World) (i c : Nat) : Nat := if c = 0 then geoPlace L w i else actPlace L w i

/-- The containers lie in the file at their places. -/
theorem body_slice (L : Layout) (w : World) (h : Fits L w) (n i c : Nat) (hi : i < n) :
    ∃ r, (body w n).drop (place L w i c) = w.container i c ++ r := by
  obtain ⟨r, e⟩ := body_prefix w (i + 1) n hi
  have hb := length_body L w h i
  unfold place World.container
  by_cases hc : c = 0
  · rw [if_pos hc, if_pos hc]
    refine ⟨w.act i ++ r, ?_⟩
    rw [e, ← hb]; simp only [body, List.append_assoc, List.drop_left]
  · rw [if_neg hc, if_neg hc]
    refine ⟨r, ?_⟩
    rw [e]
    have : actPlace L w i = (body w i ++ w.geo i).length := by
      rw [List.length_append, hb]; rfl
    rw [this]; simp only [body, List.append_assoc]
    rw [← List.append_assoc, List.drop_left]

theorem place_end (L : Layout) (w : World) (h : Fits L w) (n i c : Nat) (hi : i < n) :
    place L w i c + (w.container i c).length ≤ (body w n).length := by
  have := geoPlace_mono L w i n hi
  rw [length_body L w h]
  unfold place World.container
  unfold actPlace at *
  split_ifs <;> omega

theorem getElem?_writeAt (f : Bytes) (pos : Nat) (d : Bytes) (p : Nat) :
    (writeAt f pos d)[p]? = if p < pos then (if p < f.length then f[p]? else some 0)
      else if p < pos + d.length then d[p - pos]? else f[p]? := by
  unfold writeAt
  have hl : (f.take pos ++ List.replicate (pos - f.length) (0 : UInt8)).length = pos := by
    rw [List.length_append, List.length_take, List.length_replicate]; omega
  rw [List.append_assoc, List.append_assoc, ← List.append_assoc (f.take pos)]
  by_cases h1 : p < pos
  · rw [if_pos h1, List.getElem?_append_left (by rw [hl]; exact h1)]
    by_cases h2 : p < f.length
    · rw [if_pos h2, List.getElem?_append_left (by rw [List.length_take]; omega), List.getElem?_take_of_lt h1]
    · rw [if_neg h2, List.getElem?_append_right (by rw [List.length_take]; omega), List.getElem?_replicate,
        if_pos (by rw [List.length_take]; omega)]
  · rw [if_neg h1, List.getElem?_append_right (by rw [hl]; omega), hl]
    by_cases h2 : p < pos + d.length
    · rw [if_pos h2, List.getElem?_append_left (by omega)]
    · rw [if_neg h2, List.getElem?_append_right (by omega), List.getElem?_drop]
      congr 1; omega

theorem length_writeAt (f : Bytes) (pos : Nat) (d : Bytes) (n : Nat) (hf : f.length ≤ n) (hd : pos + d.length ≤ n) :
    (writeAt f pos d).length ≤ n := by
  unfold writeAt
  simp only [List.length_append, List.length_take, List.length_replicate, List.length_drop]
  omega

/-- A file under construction: it agrees with the whole file wherever `C` holds. -/
def Agrees (F f : Bytes) (C : Nat → Prop) : Prop :=
  f.length ≤ F.length ∧ ∀ p, p < F.length → C p → f[p]? = F[p]?

theorem agrees_write (F f : Bytes) (C : Nat → Prop) (h : Agrees F f C) (pos : Nat) (d : Bytes)
    (hd : ∃ r, F.drop pos = d ++ r) (he : pos + d.length ≤ F.length) :
    Agrees F (writeAt f pos d) (fun p => C p ∨ (pos ≤ p ∧ p < pos + d.length)) := by
  refine ⟨length_writeAt f pos d _ h.1 he, fun p hp hc => ?_⟩
  rw [getElem?_writeAt]
  by_cases h2 : pos ≤ p ∧ p < pos + d.length
  · rw [if_neg (by omega), if_pos h2.2]
    obtain ⟨r, e⟩ := hd
    have : F[p]? = (F.drop pos)[p - pos]? := by rw [List.getElem?_drop]; congr 1; omega
    rw [this, e, List.getElem?_append_left (by omega)]
  · have hC : C p := by tauto
    have e := h.2 p hp hC
    have hlen : p < f.length := by
      by_contra hcon
      rw [List.getElem?_eq_none (by omega), List.getElem?_eq_getElem hp] at e
      exact absurd e (by simp)
    by_cases h1 : p < pos
    · rw [if_pos h1, if_pos hlen]; exact e
    · rw [if_neg h1, if_neg (by omega)]; exact e

theorem agrees_all (F f : Bytes) (C : Nat → Prop) (h : Agrees F f C) (hC : ∀ p, p < F.length → C p) : f = F := by
  apply List.ext_getElem?
  intro p
  by_cases hp : p < F.length
  · exact h.2 p hp (hC p hp)
  · rw [List.getElem?_eq_none (by have := h.1; omega), List.getElem?_eq_none (by omega)]

/-- One container is put in its place. -/
theorem put_ok (L : Layout) (w : World) (h : Fits L w) (size : Nat → Nat → Int) (n : Nat)
    (hs : ∀ i c, i < n → c < 2 → size i c = (w.container i c).length)
    (ix c : Nat) (hi : ix < n) (hc : c < 2) (mem r : Bytes) (hm : mem = w.container ix c ++ r)
    (f : Bytes) (C : Nat → Prop) (hf : Agrees (body w n) f C) :
    ∃ f', put size (headerSize L w) f ix c mem = .ok f' ∧
      Agrees (body w n) f' (fun p => C p ∨ (place L w ix c ≤ p ∧ p < place L w ix c + (w.container ix c).length)) := by
  have hl := loc_eq L w size n (fun i hi => ⟨hs i 0 hi (by omega), hs i 1 hi (by omega)⟩) ix hi
  have ho : offset size (headerSize L w) ix c = (place L w ix c : Nat) := by
    unfold place
    rcases (show c = 0 ∨ c = 1 by omega) with rfl | rfl
    · simpa using hl.1
    · simpa using hl.2
  unfold put
  rw [ho, hs ix c hi hc]
  rw [if_neg]
  · refine ⟨_, rfl, ?_⟩
    have ht : mem.take ((w.container ix c).length : Int).toNat = w.container ix c := by
      rw [hm, Int.toNat_natCast, List.take_left]
    rw [ht, Int.toNat_natCast]
    exact agrees_write _ _ _ hf _ _ (body_slice L w h n ix c hi) (place_end L w h n ix c hi)
  · rw [hm, List.length_append]; push_cast; omega

/-- The bytes covered by the containers of these patches. -/
def Covers (L : Layout) (w : World) (l : List (Nat × Nat)) (p : Nat) : Prop :=
  ∃ x ∈ l, place L w x.1 x.2 ≤ p ∧ p < place L w x.1 x.2 + (w.container x.1 x.2).length

theorem agrees_mono {F f : Bytes} {C D : Nat → Prop} (h : Agrees F f C) (hD : ∀ p, D p → C p) : Agrees F f D :=
  ⟨h.1, fun p hp hd => h.2 p hp (hD p hd)⟩

theorem putOwn_ok (L : Layout) (w : World) (h : Fits L w) (size : Nat → Nat → Int) (n : Nat)
    (hn : n = L.count w.table) (hs : ∀ i c, i < n → c < 2 → size i c = (w.container i c).length)
    (l : List Nat) (hl : ∀ i ∈ l, i < n) (f : Bytes) (C : Nat → Prop) (hf : Agrees (body w n) f C) :
    ∃ f', putOwn w size (headerSize L w) l f = .ok f' ∧
      Agrees (body w n) f' (fun p => C p ∨ Covers L w (l.flatMap fun i => [(i, 0), (i, 1)]) p) := by
  induction l generalizing f C with
  | nil => exact ⟨f, rfl, agrees_mono hf (by rintro p (h | ⟨x, hx, _⟩); exacts [h, by simp at hx])⟩
  | cons ix rest ih =>
    unfold putOwn
    obtain ⟨f1, e1, h1⟩ := put_ok L w h size n hs ix 0 (hl ix (by simp)) (by omega) (w.container ix 0) [] (by simp) f C hf
    obtain ⟨f2, e2, h2⟩ := put_ok L w h size n hs ix 1 (hl ix (by simp)) (by omega) (w.container ix 1) [] (by simp) f1 _ h1
    obtain ⟨f3, e3, h3⟩ := ih (fun i hi => hl i (by simp [hi])) f2 _ h2
    rw [e1]; simp only [e2]
    refine ⟨f3, e3, agrees_mono h3 ?_⟩
    rintro p (hp | ⟨x, hx, hp⟩)
    · tauto
    · rw [List.flatMap_cons] at hx
      rcases List.mem_append.mp hx with hx | hx
      · simp only [List.mem_cons, List.not_mem_nil, or_false] at hx
        rcases hx with rfl | rfl
        · exact Or.inl (Or.inl (Or.inr hp))
        · exact Or.inl (Or.inr hp)
      · exact Or.inr ⟨x, hx, hp⟩

theorem bufferSize_ge (size : Nat → Nat → Int) (n i c : Nat) (hi : i < n) (hc : c < 2) :
    size i c ≤ bufferSize size n ∧ 0 ≤ bufferSize size n := by
  induction n with
  | zero => omega
  | succ n ih =>
    have h0 : 0 ≤ bufferSize size n := by
      clear ih hi
      induction n with
      | zero => simp [bufferSize]
      | succ n ih => unfold bufferSize; exact le_trans ih (le_max_left _ _)
    unfold bufferSize
    refine ⟨?_, le_trans h0 (le_max_left _ _)⟩
    rcases Nat.lt_or_ge i n with h | h
    · exact le_trans (ih h).1 (le_max_left _ _)
    · obtain rfl : i = n := by omega
      refine le_trans ?_ (le_max_right _ _)
      rcases (show c = 0 ∨ c = 1 by omega) with rfl | rfl
      · exact le_max_left _ _
      · exact le_max_right _ _

/-- A message carries a container. -/
def Carries (w : World) (n : Nat) (m : Msg) (x : Nat × Nat) : Prop :=
  x.1 < n ∧ x.2 < 2 ∧ m.tag = x.2 ∧ m.data = w.container x.1 x.2

theorem putReceived_ok (L : Layout) (w : World) (h : Fits L w) (size : Nat → Nat → Int) (n : Nat)
    (hn : n = L.count w.table) (hs : ∀ i c, i < n → c < 2 → size i c = (w.container i c).length)
    (ms : List Msg) (xs : List (Nat × Nat)) (hx : List.Forall₂ (Carries w n) ms xs) (buf : Bytes)
    (hb : ∀ i c, i < n → c < 2 → (w.container i c).length ≤ buf.length)
    (f : Bytes) (C : Nat → Prop) (hf : Agrees (body w n) f C) :
    ∃ f', putReceived size n (headerSize L w) ms.length ms buf f = .ok f' ∧
      Agrees (body w n) f' (fun p => C p ∨ Covers L w xs p) := by
  induction hx generalizing buf f C with
  | nil => exact ⟨f, by simp [putReceived],
      agrees_mono hf (by rintro p (h | ⟨x, hx, _⟩); exacts [h, by simp at hx])⟩
  | @cons m x ms xs hm _ ih =>
    obtain ⟨h1, h2, h3, h4⟩ := hm
    have hl := hb x.1 x.2 h1 h2
    have hr : receive buf m = some (w.container x.1 x.2 ++ buf.drop (w.container x.1 x.2).length) := by
      unfold receive; rw [h4, if_neg (by omega)]
    have hix : leInt (w.container x.1 x.2 ++ buf.drop (w.container x.1 x.2).length) = (x.1 : Int) := by
      have hpre : ∃ r, w.container x.1 x.2 = indexBytes x.1 ++ r := by
        unfold World.container
        split_ifs
        · exact (h.geo x.1 (by omega)).2.2
        · exact (h.act x.1 (by omega)).2.2
      obtain ⟨r, e⟩ := hpre
      rw [e, ← leBytes_index, List.append_assoc]
      refine leInt_leBytes _ ?_ _
      have := h.bound
      unfold IsInt; omega
    obtain ⟨f1, e1, hf1⟩ := put_ok L w h size n hs x.1 x.2 h1 h2 _ _ rfl f C hf
    have hb' : ∀ i c, i < n → c < 2 →
        (w.container i c).length ≤ (w.container x.1 x.2 ++ buf.drop (w.container x.1 x.2).length).length := by
      intro i c hi hc
      have := hb i c hi hc
      rw [List.length_append, List.length_drop]; omega
    obtain ⟨f2, e2, hf2⟩ := ih _ hb' f1 _ hf1
    rw [List.length_cons]
    have e3 : putOne size n (headerSize L w) m.tag (x.1 : Int)
        (w.container x.1 x.2 ++ buf.drop (w.container x.1 x.2).length) f = .ok f1 := by
      unfold putOne
      rw [h3, Int.toNat_natCast, if_neg (by omega), if_neg (by omega), if_neg (by omega), e1]
    refine ⟨f2, ?_, agrees_mono hf2 ?_⟩
    · rw [putReceived]
      simp only [hr, hix, e3, e2]
    rintro p (hp | ⟨y, hy, hp⟩)
    · exact Or.inl (Or.inl hp)
    · rcases List.mem_cons.mp hy with rfl | hy
      · exact Or.inl (Or.inr hp)
      · exact Or.inr ⟨y, hy, hp⟩

end Verif.Restart
