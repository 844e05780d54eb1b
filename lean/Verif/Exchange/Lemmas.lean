/-
Helper lemmas for halo exchange: loop nests as tilings, one packed and unpacked field.
-/
import Verif.Exchange.Spec
import Mathlib.Data.List.Nodup
import Mathlib.Tactic.Ring
import Mathlib.Tactic.Linarith

namespace Verif.Exchange

variable {α : Type}

/-- A node list visiting `f x y` for `x < p` (outer), `y < q` (inner). -/
structure Tiled (L : List (Int × Int)) (p q : Nat) (f : Nat → Nat → Int × Int) : Prop where
  len : L.length = p * q
  get : ∀ x y, x < p → y < q → L[x * q + y]? = some (f x y)

theorem up_length (a b : Int) : (up a b).length = (b - a).toNat := by simp [up]

theorem down_length (a b : Int) : (down a b).length = (b - a).toNat := by simp [down]

theorem up_get (a b : Int) (n : Nat) (h : n < (b - a).toNat) : (up a b)[n]? = some (a + n) := by
  simp [up, List.getElem?_map, List.getElem?_range h]

theorem down_get (a b : Int) (n : Nat) (h : n < (b - a).toNat) : (down a b)[n]? = some (b - 1 - n) := by
  simp [down, List.getElem?_map, List.getElem?_range h]

theorem nest_length (o i : List Int) (g : Int → Int → Int × Int) :
    (nest o i g).length = o.length * i.length := by
  induction o with
  | nil => simp [nest]
  | cons a o ih =>
    have : nest (a :: o) i g = i.map (fun b => g a b) ++ nest o i g := rfl
    rw [this, List.length_append, ih]
    simp; ring

theorem nest_get (o i : List Int) (g : Int → Int → Int × Int) (x y : Nat) (a b : Int)
    (hx : o[x]? = some a) (hy : i[y]? = some b) :
    (nest o i g)[x * i.length + y]? = some (g a b) := by
  have hyl : y < i.length := by
    by_contra h
    rw [List.getElem?_eq_none (by omega)] at hy
    cases hy
  induction o generalizing x with
  | nil => simp at hx
  | cons c o ih =>
    have e : nest (c :: o) i g = i.map (fun b => g c b) ++ nest o i g := rfl
    rw [e]
    cases x with
    | zero =>
      simp at hx
      subst hx
      rw [List.getElem?_append_left (by simpa using hyl)]
      simp [List.getElem?_map, hy]
    | succ x =>
      simp at hx
      have hl : (x + 1) * i.length + y = (i.map (fun b => g c b)).length + (x * i.length + y) := by
        simp; ring
      rw [hl, List.getElem?_append_right (by omega), Nat.add_sub_cancel_left]
      exact ih x hx

theorem Tiled.of_nest (o i : List Int) (g : Int → Int → Int × Int) (p q : Nat) (f : Nat → Nat → Int × Int)
    (u v : Nat → Int) (ho : o.length = p) (hi : i.length = q)
    (hu : ∀ x, x < p → o[x]? = some (u x)) (hv : ∀ y, y < q → i[y]? = some (v y))
    (hf : ∀ x y, x < p → y < q → g (u x) (v y) = f x y) : Tiled (nest o i g) p q f := by
  constructor
  · rw [nest_length, ho, hi]
  · intro x y hx hy
    rw [← hf x y hx hy, ← hi]
    exact nest_get o i g x y _ _ (hu x hx) (hv y hy)

theorem Tiled.getElem {L : List (Int × Int)} {p q : Nat} {f : Nat → Nat → Int × Int} (T : Tiled L p q f)
    (t : Nat) (ht : t < L.length) : L[t] = f (t / q) (t % q) ∧ t / q < p ∧ t % q < q := by
  have hl := T.len
  rw [hl] at ht
  have hq : 0 < q := by
    rcases Nat.eq_zero_or_pos q with h | h
    · subst h; simp at ht
    · exact h
  have h1 : t / q < p := Nat.div_lt_of_lt_mul (by rw [Nat.mul_comm]; exact ht)
  have h2 : t % q < q := Nat.mod_lt _ hq
  refine ⟨?_, h1, h2⟩
  have h3 := T.get _ _ h1 h2
  rw [Nat.div_add_mod'] at h3
  rw [List.getElem?_eq_getElem (by rw [hl]; exact ht)] at h3
  exact Option.some.inj h3

theorem Tiled.mem {L : List (Int × Int)} {p q : Nat} {f : Nat → Nat → Int × Int} (T : Tiled L p q f)
    {n : Int × Int} (hn : n ∈ L) : ∃ x y, x < p ∧ y < q ∧ n = f x y := by
  obtain ⟨t, ht, h⟩ := List.mem_iff_getElem.mp hn
  obtain ⟨h1, h2, h3⟩ := T.getElem t ht
  exact ⟨_, _, h2, h3, by rw [← h, h1]⟩

theorem Tiled.nodup {L : List (Int × Int)} {p q : Nat} {f : Nat → Nat → Int × Int} (T : Tiled L p q f)
    (inj : ∀ x y x' y', x < p → y < q → x' < p → y' < q → f x y = f x' y' → x = x' ∧ y = y') : L.Nodup := by
  rw [List.nodup_iff_injective_get]
  intro a b hab
  obtain ⟨h1, h2, h3⟩ := T.getElem a.1 a.2
  obtain ⟨g1, g2, g3⟩ := T.getElem b.1 b.2
  have : f (a.1 / q) (a.1 % q) = f (b.1 / q) (b.1 % q) := by
    rw [← h1, ← g1]
    simpa using hab
  obtain ⟨e1, e2⟩ := inj _ _ _ _ h2 h3 g2 g3 this
  apply Fin.ext
  rw [← Nat.div_add_mod' a.1 q, ← Nat.div_add_mod' b.1 q, e1, e2]

/-- Packing a list of nodes. -/
theorem packNodes_ok (d : Field α) (L : List (Int × Int)) (e : ExBuf α)
    (hin : ∀ n ∈ L, d.inside n.1 n.2) (hroom : e.ixSend + L.length * d.sR ≤ e.sendRows) :
    ∃ e', packNodes d L e = .ok e' ∧ e' = { e with send := e'.send, ixSend := e.ixSend + L.length * d.sR } ∧
      (∀ c, c < e.ixSend → e'.send c = e.send c) ∧
      ∀ t k (ht : t < L.length), k < d.sR →
        e'.send (e.ixSend + t * d.sR + k) = d.val (L[t]).1 (L[t]).2 k := by
  induction L generalizing e with
  | nil => exact ⟨e, rfl, by simp, fun _ _ => rfl, fun t k ht => absurd ht (by simp)⟩
  | cons n L ih =>
    have hl : (n :: L).length * d.sR = d.sR + L.length * d.sR := by simp; ring
    rw [hl] at hroom
    have hc : d.sR = 0 ∨ (d.inside n.1 n.2 ∧ e.ixSend + d.sR ≤ e.sendRows) :=
      Or.inr ⟨hin n (by simp), by omega⟩
    have h1 : packCol d e n = .ok { e with
      send := fun c => if e.ixSend ≤ c ∧ c < e.ixSend + d.sR then d.val n.1 n.2 (c - e.ixSend) else e.send c,
      ixSend := e.ixSend + d.sR } := by
      unfold packCol; rw [if_pos hc]
    obtain ⟨e', h2, h3, h4, h5⟩ := ih { e with
      send := fun c => if e.ixSend ≤ c ∧ c < e.ixSend + d.sR then d.val n.1 n.2 (c - e.ixSend) else e.send c,
      ixSend := e.ixSend + d.sR } (fun m hm => hin m (by simp [hm])) (by simp only; omega)
    simp only at h2 h3 h4 h5
    refine ⟨e', ?_, ?_, ?_, ?_⟩
    · simp only [packNodes, h1, Res.bind, h2]
    · rw [hl]
      conv_lhs => rw [h3]
      rw [Nat.add_assoc]
    · intro c hc'
      rw [h4 c (by omega), if_neg (by omega)]
    · intro t k ht hk
      cases t with
      | zero =>
        simp only [Nat.zero_mul, Nat.add_zero, List.getElem_cons_zero]
        rw [h4 _ (by omega), if_pos (by omega), Nat.add_sub_cancel_left]
      | succ t =>
        have := h5 t k (by simpa using ht) hk
        simp only [List.getElem_cons_succ]
        rw [← this]
        congr 1; ring

/-- Unpacking a list of nodes without repetition. -/
theorem unpackNodes_ok (L : List (Int × Int)) (e : ExBuf α) (d : Field α) (hnd : L.Nodup)
    (hin : ∀ n ∈ L, d.inside n.1 n.2) (hroom : e.ixRecv + L.length * d.sR ≤ e.recvLen) :
    ∃ d', unpackNodes L (e, d) = .ok ({ e with ixRecv := e.ixRecv + L.length * d.sR }, d') ∧
      d' = { d with val := d'.val } ∧
      (∀ t k (ht : t < L.length), k < d.sR →
        d'.val (L[t]).1 (L[t]).2 k = e.recv (e.ixRecv + t * d.sR + k)) ∧
      ∀ i j k, (i, j) ∉ L → d'.val i j k = d.val i j k := by
  induction L generalizing e d with
  | nil =>
    exact ⟨d, by simp [unpackNodes], rfl, fun t k ht => absurd ht (by simp), fun _ _ _ _ => rfl⟩
  | cons n L ih =>
    have hl : (n :: L).length * d.sR = d.sR + L.length * d.sR := by simp; ring
    rw [hl] at hroom
    have hc : d.sR = 0 ∨ (d.inside n.1 n.2 ∧ e.ixRecv + d.sR ≤ e.recvLen) :=
      Or.inr ⟨hin n (by simp), by omega⟩
    have h1 : unpackCol (e, d) n = .ok ({ e with ixRecv := e.ixRecv + d.sR },
         { d with val := fun i j k =>
             if i = n.1 ∧ j = n.2 ∧ k < d.sR then e.recv (e.ixRecv + k) else d.val i j k }) := by
      unfold unpackCol; rw [if_pos hc]
    obtain ⟨hn, hnd'⟩ := List.nodup_cons.mp hnd
    obtain ⟨d', h2, h3, h4, h5⟩ := ih { e with ixRecv := e.ixRecv + d.sR }
      { d with val := fun i j k =>
          if i = n.1 ∧ j = n.2 ∧ k < d.sR then e.recv (e.ixRecv + k) else d.val i j k } hnd'
      (fun m hm => hin m (by simp [hm])) (by simp only; omega)
    simp only at h2 h3 h4 h5
    refine ⟨d', ?_, ?_, ?_, ?_⟩
    · simp only [unpackNodes, h1, Res.bind, h2]
      rw [hl, Nat.add_assoc]
    · conv_lhs => rw [h3]
    · intro t k ht hk
      cases t with
      | zero =>
        simp only [Nat.zero_mul, Nat.add_zero, List.getElem_cons_zero]
        rw [h5 _ _ _ hn, if_pos ⟨rfl, rfl, hk⟩]
      | succ t =>
        have := h4 t k (by simpa using ht) hk
        simp only [List.getElem_cons_succ]
        rw [this]
        congr 1; ring
    · intro i j k hij
      rw [h5 i j k (fun h => hij (by simp [h])), if_neg]
      rintro ⟨a, b, _⟩
      exact hij (by simp [a, b])

/-- The static description of a buffer. -/
def conn (e : ExBuf α) : Conn := ⟨e.dir, e.first, e.second, e.halo, e.rev⟩

/-- One field sent over connection `cS` and received over `cT`: packing succeeds and, whatever is packed
afterwards, unpacking at the same position succeeds with result `D`. -/
def Link (D : Field α → Field α → Field α → Prop) (N AS BS AT BT : Nat) (cS cT : Conn) : Prop :=
  ∀ (e : ExBuf α) (d : Field α), conn e = cS → d.sA = AS → d.sB = BS → e.ixSend + N * d.sR ≤ e.sendRows →
  ∃ e', pack3 e d = .ok e' ∧ e' = { e with send := e'.send, ixSend := e.ixSend + N * d.sR } ∧
    (∀ c, c < e.ixSend → e'.send c = e.send c) ∧
    ∀ (r : ExBuf α) (g : Field α), conn r = cT → g.sA = AT → g.sB = BT → g.sR = d.sR →
      (∀ c, c < e'.ixSend → r.recv c = e'.send c) → r.ixRecv = e.ixSend → r.ixRecv + N * d.sR ≤ r.recvLen →
      r.recvLen ≤ r.recvRows →
      ∃ g', unpack3 r g = .ok ({ r with ixRecv := r.ixRecv + N * d.sR }, g') ∧
        g' = { g with val := g'.val } ∧ D d g g'

/-- The lists of nodes packed and unpacked over a connection. -/
theorem link_of_tiled (D : Field α → Field α → Field α → Prop) (AS BS AT BT p q : Nat) (cS cT : Conn)
    (f g : Nat → Nat → Int × Int)
    (hP : ∀ (e : ExBuf α) (d : Field α), conn e = cS → d.sA = AS → d.sB = BS →
      ∃ L, pack3 e d = packRegion e d ((d.sR : Int) * (p * q : Nat)) L ∧ Tiled L p q f)
    (hU : ∀ (e : ExBuf α) (d : Field α), conn e = cT → d.sA = AT → d.sB = BT →
      ∃ L, unpack3 e d = unpackRegion e d ((d.sR : Int) * (p * q : Nat)) L ∧ Tiled L p q g)
    (hf : ∀ x y, x < p → y < q → 0 ≤ (f x y).1 ∧ (f x y).1 < AS ∧ 0 ≤ (f x y).2 ∧ (f x y).2 < BS)
    (hg : ∀ x y, x < p → y < q → 0 ≤ (g x y).1 ∧ (g x y).1 < AT ∧ 0 ≤ (g x y).2 ∧ (g x y).2 < BT)
    (inj : ∀ x y x' y', x < p → y < q → x' < p → y' < q → g x y = g x' y' → x = x' ∧ y = y')
    (hD : ∀ d old new : Field α, d.sA = AS → d.sB = BS → old.sA = AT → old.sB = BT → d.sR = old.sR →
      new = { old with val := new.val } →
      (∀ x y k, x < p → y < q → k < old.sR →
        new.val (g x y).1 (g x y).2 k = d.val (f x y).1 (f x y).2 k) →
      (∀ i j k, (∀ x y, x < p → y < q → (i, j) ≠ g x y) → new.val i j k = old.val i j k) → D d old new) :
    Link D (p * q) AS BS AT BT cS cT := by
  intro e d he hA hB hroom
  obtain ⟨L, hL, T⟩ := hP e d he hA hB
  have hin : ∀ n ∈ L, d.inside n.1 n.2 := by
    intro n hn
    obtain ⟨x, y, hx, hy, rfl⟩ := T.mem hn
    have := hf x y hx hy
    unfold Field.inside
    omega
  obtain ⟨e', h1, h2, h3, h4⟩ := packNodes_ok d L e hin (by rw [T.len]; exact hroom)
  have hmul : ((d.sR : Int) * (p * q : Nat)) = ((p * q * d.sR : Nat) : Int) := by push_cast; ring
  have hsend : sendRoom e ((d.sR : Int) * (p * q : Nat)) := by
    unfold sendRoom; rw [hmul]; omega
  rw [T.len] at h2
  refine ⟨e', ?_, h2, h3, ?_⟩
  · rw [hL]; unfold packRegion; rw [if_pos hsend, h1]
  intro r o hr hoA hoB hoR hmsg hix hrr hlen
  obtain ⟨M, hM, U⟩ := hU r o hr hoA hoB
  have hin' : ∀ n ∈ M, o.inside n.1 n.2 := by
    intro n hn
    obtain ⟨x, y, hx, hy, rfl⟩ := U.mem hn
    have := hg x y hx hy
    unfold Field.inside
    omega
  obtain ⟨o', k1, k2, k3, k4⟩ := unpackNodes_ok M r o (U.nodup inj) hin' (by rw [U.len, hoR]; exact hrr)
  have hrecv : recvRoom r ((o.sR : Int) * (p * q : Nat)) := by
    unfold recvRoom; rw [hoR, hmul]; omega
  have hix' : e'.ixSend = e.ixSend + p * q * d.sR := by rw [h2]
  refine ⟨o', ?_, k2, ?_⟩
  · rw [hM]; unfold unpackRegion; rw [if_pos hrecv, k1, U.len, hoR]
  · refine hD d o o' hA hB hoA hoB hoR.symm k2 ?_ ?_
    · intro x y k hx hy hk
      have hlt : x * q + y < p * q := by
        calc x * q + y < x * q + q := by omega
          _ = (x + 1) * q := by ring
          _ ≤ p * q := Nat.mul_le_mul_right _ hx
      have a1 := U.get x y hx hy
      rw [List.getElem?_eq_getElem (by rw [U.len]; exact hlt)] at a1
      have a1 := Option.some.inj a1
      have b1 := T.get x y hx hy
      rw [List.getElem?_eq_getElem (by rw [T.len]; exact hlt)] at b1
      have b1 := Option.some.inj b1
      have a2 := k3 (x * q + y) k (by rw [U.len]; exact hlt) hk
      have b2 := h4 (x * q + y) k (by rw [T.len]; exact hlt) (by omega)
      rw [a1] at a2
      rw [b1] at b2
      rw [a2, ← b2, hix, hoR]
      apply hmsg
      rw [hix']
      have : (x * q + y) * d.sR + k < p * q * d.sR := by
        calc (x * q + y) * d.sR + k < (x * q + y) * d.sR + d.sR := by omega
          _ = (x * q + y + 1) * d.sR := by ring
          _ ≤ p * q * d.sR := Nat.mul_le_mul_right _ hlt
      omega
    · intro i j k hij
      apply k4
      intro hm
      obtain ⟨x, y, hx, hy, h⟩ := U.mem hm
      exact hij x y hx hy h

end Verif.Exchange
