/-
Helper lemmas for the attachment of receive regions.
-/
import Verif.Registry.Lemmas
import Verif.Registry.Spec
import Mathlib.Data.List.Forall2
import Mathlib.Data.List.Perm.Basic

namespace Verif.Registry

open Verif.Exchange (Header Dir)

/-- Entries for processor `q` with their registry indices. -/
def sel (q : Int) : List Entry → Nat → List (Nat × Entry)
  | [], _ => []
  | e :: es, m => if e.proc = q then (m, e) :: sel q es (m + 1) else sel q es (m + 1)

theorem sel_mem (q : Int) (es : List Entry) (m0 m : Nat) (e : Entry) :
    (m, e) ∈ sel q es m0 ↔ ∃ k, m = m0 + k ∧ es[k]? = some e ∧ e.proc = q := by
  induction es generalizing m0 with
  | nil => simp [sel]
  | cons a es ih =>
    unfold sel
    by_cases hq : a.proc = q
    · rw [if_pos hq, List.mem_cons, ih]
      constructor
      · rintro (h | ⟨k, h1, h2, h3⟩)
        · simp at h; exact ⟨0, by omega, by simp [h.2], by rw [h.2]; exact hq⟩
        · exact ⟨k + 1, by omega, by simpa using h2, h3⟩
      · rintro ⟨k, h1, h2, h3⟩
        cases k with
        | zero => left; simp at h2; simp [h1, h2]
        | succ k => right; exact ⟨k, by omega, by simpa using h2, h3⟩
    · rw [if_neg hq, ih]
      constructor
      · rintro ⟨k, h1, h2, h3⟩
        exact ⟨k + 1, by omega, by simpa using h2, h3⟩
      · rintro ⟨k, h1, h2, h3⟩
        cases k with
        | zero => simp at h2; subst h2; exact absurd h3 hq
        | succ k => exact ⟨k, by omega, by simpa using h2, h3⟩

theorem sel_fst (q : Int) (es : List Entry) (m0 : Nat) : (sel q es m0).map Prod.fst = indices q es m0 := by
  induction es generalizing m0 with
  | nil => rfl
  | cons a es ih =>
    unfold sel indices
    by_cases hq : a.proc = q
    · rw [if_pos hq, if_pos hq, List.map_cons, ih]
    · rw [if_neg hq, if_neg hq, ih]

theorem sel_sizes (q : Int) (es : List Entry) (m0 : Nat) :
    ((sel q es m0).map fun x => x.2.size).sum = total es q := by
  induction es generalizing m0 with
  | nil => rfl
  | cons a es ih =>
    rw [total_cons]
    unfold sel
    by_cases hq : a.proc = q
    · rw [if_pos hq, if_pos hq, List.map_cons, List.sum_cons, ih]
    · rw [if_neg hq, if_neg hq, ih, Nat.zero_add]

theorem sel_filterMap (q : Int) (es : List Entry) :
    ((indices q es 0).filterMap fun m => (es[m]?).map fun e => (m, e)) = sel q es 0 := by
  rw [← sel_fst, List.filterMap_map]
  have : ∀ l : List (Nat × Entry), (∀ x ∈ l, es[x.1]? = some x.2) →
      l.filterMap ((fun m => (es[m]?).map fun e => (m, e)) ∘ Prod.fst) = l := by
    intro l hl
    induction l with
    | nil => rfl
    | cons x l ih =>
      rw [List.filterMap_cons]
      simp only [Function.comp, hl x (by simp), Option.map_some]
      congr 1
      exact ih fun y hy => hl y (by simp [hy])
  apply this
  rintro ⟨m, e⟩ h
  obtain ⟨k, h1, h2, _⟩ := (sel_mem q es 0 m e).mp h
  simp only [h1, Nat.zero_add, h2]

/-- `F` holds of every segment with its start. -/
def StartsAt (F : Nat → Nat → Prop) : Nat → List (Nat × Entry) → Prop
  | _, [] => True
  | pos, (m, e) :: l => F m pos ∧ StartsAt F (pos + e.size) l

theorem startsAt_sel (F : Nat → Nat → Prop) (q : Int) (es : List Entry) : ∀ (m0 pos : Nat),
    (∀ (k : Nat) (e : Entry), es[k]? = some e → e.proc = q → F (m0 + k) (pos + before es q k)) →
    StartsAt F pos (sel q es m0) := by
  induction es with
  | nil => intro _ _ _; trivial
  | cons a es ih =>
    intro m0 pos h
    unfold sel
    by_cases hq : a.proc = q
    · rw [if_pos hq]
      refine ⟨by simpa [before_zero] using h 0 a rfl hq, ih (m0 + 1) (pos + a.size) ?_⟩
      intro k e hk he
      have := h (k + 1) e (by simpa using hk) he
      rw [before_succ, if_pos hq] at this
      rw [show m0 + 1 + k = m0 + (k + 1) by omega, show pos + a.size + before es q k = pos + (a.size + before es q k) by omega]
      exact this
    · rw [if_neg hq]
      apply ih
      intro k e hk he
      have := h (k + 1) e (by simpa using hk) he
      rw [before_succ, if_neg hq, Nat.zero_add] at this
      rw [show m0 + 1 + k = m0 + (k + 1) by omega]
      exact this

theorem findHeader_mem (l : List (Nat × Entry)) (m : Nat) (e : Entry) (h : (m, e) ∈ l)
    (hinj : ∀ x ∈ l, ∀ y ∈ l, x.2.recvHdr = y.2.recvHdr → x = y) :
    findHeader e.recvHdr l = some (m, e) := by
  induction l with
  | nil => simp at h
  | cons a l ih =>
    obtain ⟨m1, e1⟩ := a
    unfold findHeader
    by_cases hh : e1.recvHdr = e.recvHdr
    · rw [if_pos hh]
      exact congrArg some (hinj (m1, e1) (by simp) (m, e) h hh)
    · rw [if_neg hh]
      apply ih
      · rcases List.mem_cons.mp h with h | h
        · simp at h; rw [h.2] at hh; exact absurd rfl hh
        · exact h
      · exact fun x hx y hy => hinj x (by simp [hx]) y (by simp [hy])

/-- A segment of the message and the entry it is attached to. -/
def Pairs (bufs : List (Nat × Entry)) (x y : Nat × Entry) : Prop :=
  x ∈ bufs ∧ y.2.sendHdr = x.2.recvHdr ∧ y.2.size = x.2.size

theorem attachFrom_ok (bufs : List (Nat × Entry)) (tot : Nat) (at_ : Nat → Option Header) (F : Nat → Nat → Prop)
    (hinj : ∀ x ∈ bufs, ∀ y ∈ bufs, x.2.recvHdr = y.2.recvHdr → x = y)
    (hpos : ∀ x ∈ bufs, 0 < x.2.size) :
    ∀ (seg msg : List (Nat × Entry)), List.Forall₂ (Pairs bufs) seg msg → ∀ (pos : Nat) (got : List (Nat × Nat)),
    seg ≠ [] → StartsAt F pos msg →
    (∀ y ∈ msg, ∀ o, F y.1 o → at_ o = some y.2.sendHdr) →
    (got.map Prod.fst ++ seg.map Prod.fst).Nodup →
    pos + (seg.map fun x => x.2.size).sum = tot → got.length + seg.length = bufs.length →
    ∃ r, attachFrom bufs tot at_ pos got = .ok (got ++ r) ∧ r.map Prod.fst = seg.map Prod.fst ∧
      ∀ m o, (m, o) ∈ r → ∃ e y, (m, e) ∈ bufs ∧ y ∈ msg ∧ F y.1 o ∧ Pairs bufs (m, e) y := by
  intro seg msg hf
  induction hf with
  | nil => intro _ _ h; exact absurd rfl h
  | @cons x y seg msg hxy hf ih =>
    intro pos got _ hst hat hnd hsum hlen
    obtain ⟨mx, ex⟩ := x
    obtain ⟨my, ey⟩ := y
    obtain ⟨hF, hst⟩ := hst
    obtain ⟨hb, hh, hsz⟩ := hxy
    simp only at hh hsz
    have hfind := findHeader_mem bufs mx ex hb hinj
    have hp0 := hpos _ hb
    simp only at hp0
    have hat0 := hat (my, ey) (by simp) pos hF
    simp only [hh] at hat0
    have hnot : got.any (fun z => z.1 == mx) = false := by
      rw [List.any_eq_false]
      intro z hz
      simp only [beq_iff_eq]
      intro hzz
      have := (List.nodup_append.mp hnd).2.2 z.1 (List.mem_map_of_mem hz) mx (by simp)
      exact this hzz
    rw [attachFrom, hat0]
    simp only [hfind, hnot, Bool.false_eq_true, if_false]
    simp only [List.map_cons, List.sum_cons] at hsum
    rw [if_neg (by omega), if_neg (by omega)]
    by_cases hseg : seg = []
    · subst hseg
      cases hf
      simp only [List.map_nil, List.sum_nil] at hsum
      simp only [List.length_cons, List.length_nil] at hlen
      rw [if_pos (by omega), if_pos (by simp; omega)]
      refine ⟨[(mx, pos)], rfl, rfl, ?_⟩
      intro m o hmo
      simp at hmo
      obtain ⟨rfl, rfl⟩ := hmo
      exact ⟨ex, (my, ey), hb, by simp, hF, hb, hh, hsz⟩
    · have hsp : 0 < (seg.map fun x => x.2.size).sum := by
        cases hf with
        | nil => exact absurd rfl hseg
        | cons h1 _ =>
          have := hpos _ h1.1
          simp only [List.map_cons, List.sum_cons]; omega
      rw [if_neg (by omega)]
      obtain ⟨r, h1, h2, h3⟩ := ih (pos + ex.size) (got ++ [(mx, pos)]) hseg (by rw [← hsz]; exact hst)
        (fun z hz o ho => hat z (by simp [hz]) o ho) (by simpa using hnd) (by omega) (by simp at hlen ⊢; omega)
      refine ⟨(mx, pos) :: r, by rw [h1]; simp, by simp [h2], ?_⟩
      intro m o hmo
      rcases List.mem_cons.mp hmo with h | h
      · simp at h
        obtain ⟨rfl, rfl⟩ := h
        exact ⟨ex, (my, ey), hb, by simp, hF, hb, hh, hsz⟩
      · obtain ⟨e, z, g1, g2, g3, g4⟩ := h3 m o h
        exact ⟨e, z, g1, by simp [g2], g3, g4⟩

theorem exists_forall₂ {α β : Type} (R : α → β → Prop) (l : List β) (h : ∀ y ∈ l, ∃ x, R x y) :
    ∃ l', List.Forall₂ R l' l := by
  induction l with
  | nil => exact ⟨[], .nil⟩
  | cons y l ih =>
    obtain ⟨x, hx⟩ := h y (by simp)
    obtain ⟨l', hl⟩ := ih fun z hz => h z (by simp [hz])
    exact ⟨x :: l', .cons hx hl⟩

theorem forall₂_nodup {α β : Type} {R : α → β → Prop} {l' : List α} {l : List β} (h : List.Forall₂ R l' l)
    (hnd : l.Nodup) (hinj : ∀ x, ∀ y ∈ l, ∀ y' ∈ l, R x y → R x y' → y = y') : l'.Nodup := by
  induction h with
  | nil => exact List.nodup_nil
  | @cons x y l' l hxy hf ih =>
    rw [List.nodup_cons] at hnd ⊢
    refine ⟨?_, ih hnd.2 fun x y hy y' hy' => hinj x y (by simp [hy]) y' (by simp [hy'])⟩
    intro hx
    obtain ⟨z, hz, hr⟩ : ∃ z ∈ l, R x z := by
      clear ih hinj hnd
      induction hf with
      | nil => simp at hx
      | cons h _ ih =>
        rcases List.mem_cons.mp hx with rfl | hx
        · exact ⟨_, by simp, h⟩
        · obtain ⟨z, hz, hr⟩ := ih hx
          exact ⟨z, by simp [hz], hr⟩
    have := hinj x y (by simp) z (by simp [hz]) hxy hr
    subst this
    exact hnd.1 hz

theorem forall₂_left {α β : Type} {R : α → β → Prop} {l' : List α} {l : List β} (h : List.Forall₂ R l' l) :
    (∀ x ∈ l', ∃ y ∈ l, R x y) ∧ ∀ y ∈ l, ∃ x ∈ l', R x y := by
  induction h with
  | nil => simp
  | cons h _ ih =>
    refine ⟨?_, ?_⟩
    · intro x hx
      rcases List.mem_cons.mp hx with rfl | hx
      · exact ⟨_, by simp, h⟩
      · obtain ⟨z, hz, hr⟩ := ih.1 x hx; exact ⟨z, by simp [hz], hr⟩
    · intro x hx
      rcases List.mem_cons.mp hx with rfl | hx
      · exact ⟨_, by simp, h⟩
      · obtain ⟨z, hz, hr⟩ := ih.2 x hx; exact ⟨z, by simp [hz], hr⟩

end Verif.Registry
