/-
Every edge and corner connection links a packed to an unpacked field.
-/
import Verif.Exchange.Lemmas

namespace Verif.Exchange

variable {α : Type}

theorem along_length (e : ExBuf α) : (along e).length = (e.second - e.first).toNat := by
  unfold along; split
  · exact down_length _ _
  · exact up_length _ _

theorem along_get (e : ExBuf α) (y : Nat) (h : y < (e.second - e.first).toNat) :
    (along e)[y]? = some (e.first + ((if e.rev then (e.second - e.first).toNat - 1 - y else y : Nat) : Int)) := by
  unfold along; split
  · rw [down_get _ _ _ h]; congr 1; omega
  · rw [up_get _ _ _ h]

/-- Packing an edge visits the strip of interior nodes, deepest row first. -/
theorem pack_edge (s : Setting) (c : Conn) (hc : c.dir.Edge) (hh : c.halo = s.halo) (hF : Fits s c)
    (e : ExBuf α) (d : Field α) (he : conn e = c) (hA : d.sA = s.widthA + 2 * s.halo)
    (hB : d.sB = s.widthB + 2 * s.halo) :
    ∃ L, pack3 e d = packRegion e d ((d.sR : Int) * (s.halo * c.len : Nat)) L ∧
      Tiled L s.halo c.len (fun x y => edgeInterior c.dir d.sA d.sB c.halo c.first (s.halo - 1 - x)
        (if c.rev then c.len - 1 - y else y)) := by
  subst he
  simp only [conn] at hc hh hF ⊢
  have hlen : ∀ (t : Int), t = (s.halo : Int) → e.first ≤ e.second →
      (d.sR : Int) * t * (e.second - e.first) =
      (d.sR : Int) * (s.halo * (e.second - e.first).toNat : Nat) := by
    intro t ht h
    rw [ht]; push_cast [Int.toNat_of_nonneg (by omega : (0:Int) ≤ e.second - e.first)]; ring
  unfold Conn.len
  simp only
  rcases hc with h | h | h | h
  · simp only [Fits, h] at hF
    have hb : ¬ beyond e.second d.sB := by unfold beyond; omega
    refine ⟨nest (up ((d.sA : Int) - 2 * e.halo) (d.sA - e.halo)) (along e) fun i j => (i, j), ?_, ?_⟩
    · simp only [pack3, h, if_neg hb]
      rw [hlen _ (by omega) hF.2.1]
    · refine Tiled.of_nest _ _ _ _ _ _ (fun x => (d.sA : Int) - 2 * e.halo + x)
        (fun y => e.first + ((if e.rev then (e.second - e.first).toNat - 1 - y else y : Nat) : Int)) ?_ ?_ ?_ ?_ ?_
      · rw [up_length]; omega
      · exact along_length e
      · intro x hx; exact up_get _ _ _ (by omega)
      · intro y hy; exact along_get e y hy
      · intro x y hx hy; simp only [edgeInterior, h, Prod.mk.injEq]; constructor <;> first | trivial | omega
  · simp only [Fits, h] at hF
    have hb : ¬ beyond e.second d.sA := by unfold beyond; omega
    refine ⟨nest (up ((d.sB : Int) - 2 * e.halo) (d.sB - e.halo)) (along e) fun j i => (i, j), ?_, ?_⟩
    · simp only [pack3, h, if_neg hb]
      rw [hlen _ (by omega) hF.2.1]
    · refine Tiled.of_nest _ _ _ _ _ _ (fun x => (d.sB : Int) - 2 * e.halo + x)
        (fun y => e.first + ((if e.rev then (e.second - e.first).toNat - 1 - y else y : Nat) : Int)) ?_ ?_ ?_ ?_ ?_
      · rw [up_length]; omega
      · exact along_length e
      · intro x hx; exact up_get _ _ _ (by omega)
      · intro y hy; exact along_get e y hy
      · intro x y hx hy; simp only [edgeInterior, h, Prod.mk.injEq]; constructor <;> first | trivial | omega
  · simp only [Fits, h] at hF
    have hb : ¬ beyond e.second d.sB := by unfold beyond; omega
    refine ⟨nest (down (e.halo : Int) (2 * e.halo)) (along e) fun i j => (i, j), ?_, ?_⟩
    · simp only [pack3, h, if_neg hb]
      rw [hlen _ (by omega) hF.2.1]
    · refine Tiled.of_nest _ _ _ _ _ _ (fun x => (2 * e.halo : Int) - 1 - x)
        (fun y => e.first + ((if e.rev then (e.second - e.first).toNat - 1 - y else y : Nat) : Int)) ?_ ?_ ?_ ?_ ?_
      · rw [down_length]; omega
      · exact along_length e
      · intro x hx; exact down_get _ _ _ (by omega)
      · intro y hy; exact along_get e y hy
      · intro x y hx hy; simp only [edgeInterior, h, Prod.mk.injEq]; constructor <;> first | trivial | omega
  · simp only [Fits, h] at hF
    have hb : ¬ beyond e.second d.sA := by unfold beyond; omega
    refine ⟨nest (down (e.halo : Int) (2 * e.halo)) (along e) fun j i => (i, j), ?_, ?_⟩
    · simp only [pack3, h, if_neg hb]
      rw [hlen _ (by omega) hF.2.1]
    · refine Tiled.of_nest _ _ _ _ _ _ (fun x => (2 * e.halo : Int) - 1 - x)
        (fun y => e.first + ((if e.rev then (e.second - e.first).toNat - 1 - y else y : Nat) : Int)) ?_ ?_ ?_ ?_ ?_
      · rw [down_length]; omega
      · exact along_length e
      · intro x hx; exact down_get _ _ _ (by omega)
      · intro y hy; exact along_get e y hy
      · intro x y hx hy; simp only [edgeInterior, h, Prod.mk.injEq]; constructor <;> first | trivial | omega

/-- Unpacking an edge visits the halo strip, outermost row first. -/
theorem unpack_edge (s : Setting) (c : Conn) (hc : c.dir.Edge) (hh : c.halo = s.halo) (hF : Fits s c)
    (e : ExBuf α) (d : Field α) (he : conn e = c) (hA : d.sA = s.widthA + 2 * s.halo)
    (hB : d.sB = s.widthB + 2 * s.halo) :
    ∃ L, unpack3 e d = unpackRegion e d ((d.sR : Int) * (s.halo * c.len : Nat)) L ∧
      Tiled L s.halo c.len (fun x y => edgeHalo c.dir d.sA d.sB c.halo c.first (s.halo - 1 - x) y) := by
  subst he
  simp only [conn] at hc hh hF ⊢
  have hlen : ∀ (t : Int), t = (s.halo : Int) → e.first ≤ e.second →
      (d.sR : Int) * t * (e.second - e.first) =
      (d.sR : Int) * (s.halo * (e.second - e.first).toNat : Nat) := by
    intro t ht h
    rw [ht]; push_cast [Int.toNat_of_nonneg (by omega : (0:Int) ≤ e.second - e.first)]; ring
  unfold Conn.len
  simp only
  rcases hc with h | h | h | h
  · simp only [Fits, h] at hF
    refine ⟨nest (down ((d.sA : Int) - e.halo) d.sA) (up e.first e.second) fun i j => (i, j), ?_, ?_⟩
    · simp only [unpack3, h]
      rw [hlen _ (by omega) hF.2.1]
    · refine Tiled.of_nest _ _ _ _ _ _ (fun x => (d.sA : Int) - 1 - x) (fun y => e.first + (y : Int)) ?_ ?_ ?_ ?_ ?_
      · rw [down_length]; omega
      · exact up_length _ _
      · intro x hx; exact down_get _ _ _ (by omega)
      · intro y hy; exact up_get _ _ _ hy
      · intro x y hx hy; simp only [edgeHalo, h, Prod.mk.injEq]; constructor <;> first | trivial | omega
  · simp only [Fits, h] at hF
    refine ⟨nest (down ((d.sB : Int) - e.halo) d.sB) (up e.first e.second) fun j i => (i, j), ?_, ?_⟩
    · simp only [unpack3, h]
      rw [hlen _ (by omega) hF.2.1]
    · refine Tiled.of_nest _ _ _ _ _ _ (fun x => (d.sB : Int) - 1 - x) (fun y => e.first + (y : Int)) ?_ ?_ ?_ ?_ ?_
      · rw [down_length]; omega
      · exact up_length _ _
      · intro x hx; exact down_get _ _ _ (by omega)
      · intro y hy; exact up_get _ _ _ hy
      · intro x y hx hy; simp only [edgeHalo, h, Prod.mk.injEq]; constructor <;> first | trivial | omega
  · simp only [Fits, h] at hF
    refine ⟨nest (up 0 (e.halo : Int)) (up e.first e.second) fun i j => (i, j), ?_, ?_⟩
    · simp only [unpack3, h]
      rw [hlen _ (by omega) hF.2.1]
    · refine Tiled.of_nest _ _ _ _ _ _ (fun x => (0 : Int) + x) (fun y => e.first + (y : Int)) ?_ ?_ ?_ ?_ ?_
      · rw [up_length]; omega
      · exact up_length _ _
      · intro x hx; exact up_get _ _ _ (by omega)
      · intro y hy; exact up_get _ _ _ hy
      · intro x y hx hy; simp only [edgeHalo, h, Prod.mk.injEq]; constructor <;> first | trivial | omega
  · simp only [Fits, h] at hF
    refine ⟨nest (up 0 (e.halo : Int)) (up e.first e.second) fun j i => (i, j), ?_, ?_⟩
    · simp only [unpack3, h]
      rw [hlen _ (by omega) hF.2.1]
    · refine Tiled.of_nest _ _ _ _ _ _ (fun x => (0 : Int) + x) (fun y => e.first + (y : Int)) ?_ ?_ ?_ ?_ ?_
      · rw [up_length]; omega
      · exact up_length _ _
      · intro x hx; exact up_get _ _ _ (by omega)
      · intro y hy; exact up_get _ _ _ hy
      · intro x y hx hy; simp only [edgeHalo, h, Prod.mk.injEq]; constructor <;> first | trivial | omega

/-- An edge connection delivers one field. -/
theorem edge_link (sS sT : Setting) (cS cT : Conn) (hS : cS.dir.Edge) (hT : cT.dir.Edge)
    (hSh : cS.halo = sS.halo) (hTh : cT.halo = sT.halo) (hh : sT.halo = sS.halo)
    (hFS : Fits sS cS) (hFT : Fits sT cT) (hl : cT.len = cS.len) :
    Link (α := α) (EdgeDelivered cS cT) (sS.halo * cS.len) (sS.widthA + 2 * sS.halo) (sS.widthB + 2 * sS.halo)
      (sT.widthA + 2 * sT.halo) (sT.widthB + 2 * sT.halo) cS cT := by
  apply link_of_tiled (f := fun x y => edgeInterior cS.dir (sS.widthA + 2 * sS.halo) (sS.widthB + 2 * sS.halo)
      cS.halo cS.first (sS.halo - 1 - x) (if cS.rev then cS.len - 1 - y else y))
    (g := fun x y => edgeHalo cT.dir (sT.widthA + 2 * sT.halo) (sT.widthB + 2 * sT.halo) cT.halo cT.first
      (sS.halo - 1 - x) y)
  · intro e d he hA hB
    obtain ⟨L, h1, h2⟩ := pack_edge sS cS hS hSh hFS e d he hA hB
    rw [hA, hB] at h2
    exact ⟨L, h1, h2⟩
  · intro e d he hA hB
    obtain ⟨L, h1, h2⟩ := unpack_edge sT cT hT hTh hFT e d he hA hB
    rw [hA, hB, hl, hh] at h2
    rw [hl, hh] at h1
    rw [← hh] at h2 ⊢
    exact ⟨L, by rw [h1, ← hh], h2⟩
  · intro x y hx hy
    have hy' : (if cS.rev then cS.len - 1 - y else y) < cS.len := by split <;> omega
    revert hy'
    generalize (if cS.rev then cS.len - 1 - y else y) = z
    intro hz
    unfold Conn.len at hz
    rcases hS with h | h | h | h <;> simp only [h, edgeInterior, Fits] at hFS ⊢ <;> omega
  · intro x y hx hy
    rw [← hl] at hy
    unfold Conn.len at hy
    rcases hT with h | h | h | h <;> simp only [h, edgeHalo, Fits] at hFT ⊢ <;> omega
  · intro x y x' y' hx hy hx' hy' h'
    rcases hT with h | h | h | h <;> simp only [h, edgeHalo, Prod.mk.injEq] at h' <;> omega
  · intro d old new h1 h2 h3 h4 h5 hnew hval hrest
    constructor
    · rw [hnew]
    · rw [hnew]
    · rw [hnew]
    · intro x y k hx hy hk
      have := hval (sS.halo - 1 - x) y k (by omega) (by omega) hk
      simp only [(by omega : sS.halo - 1 - (sS.halo - 1 - x) = x)] at this
      rw [h1, h2, h3, h4, this]
    · intro i j k hij
      apply hrest
      intro x y hx hy
      have := hij (sS.halo - 1 - x) y (by omega) (by omega)
      rw [h3, h4] at this
      exact this

/-- Packing a corner visits the block inside it; depths are exchanged if reversed. -/
theorem pack_corner (c : Conn) (hc : c.dir.Corner) (e : ExBuf α) (d : Field α) (he : conn e = c) :
    ∃ L, pack3 e d = packRegion e d ((d.sR : Int) * (c.halo * c.halo : Nat)) L ∧
      Tiled L c.halo c.halo (fun y x => cornerInterior c.dir c.first c.second
        (if c.rev then c.halo - 1 - y else c.halo - 1 - x)
        (if c.rev then c.halo - 1 - x else c.halo - 1 - y)) := by
  subst he
  simp only [conn] at hc ⊢
  have hlen : ∀ (t u : Int), t = (e.halo : Int) → u = (e.halo : Int) →
      (d.sR : Int) * t * u = (d.sR : Int) * (e.halo * e.halo : Nat) := by
    intro t u ht hu
    rw [ht, hu]; push_cast; ring
  rcases hc with h | h | h | h
  · simp only [pack3, h]
    rw [hlen _ _ (by omega) (by omega)]
    refine ⟨_, rfl, ?_⟩
    rcases Bool.eq_false_or_eq_true e.rev with hr | hr <;> simp only [hr, if_true, Bool.false_eq_true, if_false]
    rotate_left
    · refine Tiled.of_nest _ _ _ _ _ _ (fun x => e.second - e.halo + 1 + (x : Int))
        (fun x => e.first - e.halo + 1 + (x : Int)) ?_ ?_ ?_ ?_ ?_
      · rw [up_length]; omega
      · rw [up_length]; omega
      · intro x hx; exact up_get _ _ _ (by omega)
      · intro x hx; exact up_get _ _ _ (by omega)
      · intro x y hx hy; simp only [cornerInterior, Prod.mk.injEq]; constructor <;> omega
    · refine Tiled.of_nest _ _ _ _ _ _ (fun x => e.first - e.halo + 1 + (x : Int))
        (fun x => e.second - e.halo + 1 + (x : Int)) ?_ ?_ ?_ ?_ ?_
      · rw [up_length]; omega
      · rw [up_length]; omega
      · intro x hx; exact up_get _ _ _ (by omega)
      · intro x hx; exact up_get _ _ _ (by omega)
      · intro x y hx hy; simp only [cornerInterior, Prod.mk.injEq]; constructor <;> omega
  · simp only [pack3, h]
    rw [hlen _ _ (by omega) (by omega)]
    refine ⟨_, rfl, ?_⟩
    rcases Bool.eq_false_or_eq_true e.rev with hr | hr <;> simp only [hr, if_true, Bool.false_eq_true, if_false]
    rotate_left
    · refine Tiled.of_nest _ _ _ _ _ _ (fun x => e.second - e.halo + 1 + (x : Int))
        (fun x => e.first + e.halo - 1 - (x : Int)) ?_ ?_ ?_ ?_ ?_
      · rw [up_length]; omega
      · rw [down_length]; omega
      · intro x hx; exact up_get _ _ _ (by omega)
      · intro x hx; exact down_get _ _ _ (by omega)
      · intro x y hx hy; simp only [cornerInterior, Prod.mk.injEq]; constructor <;> omega
    · refine Tiled.of_nest _ _ _ _ _ _ (fun x => e.first + e.halo - 1 - (x : Int))
        (fun x => e.second - e.halo + 1 + (x : Int)) ?_ ?_ ?_ ?_ ?_
      · rw [down_length]; omega
      · rw [up_length]; omega
      · intro x hx; exact down_get _ _ _ (by omega)
      · intro x hx; exact up_get _ _ _ (by omega)
      · intro x y hx hy; simp only [cornerInterior, Prod.mk.injEq]; constructor <;> omega
  · simp only [pack3, h]
    rw [hlen _ _ (by omega) (by omega)]
    refine ⟨_, rfl, ?_⟩
    rcases Bool.eq_false_or_eq_true e.rev with hr | hr <;> simp only [hr, if_true, Bool.false_eq_true, if_false]
    rotate_left
    · refine Tiled.of_nest _ _ _ _ _ _ (fun x => e.second + e.halo - 1 - (x : Int))
        (fun x => e.first + e.halo - 1 - (x : Int)) ?_ ?_ ?_ ?_ ?_
      · rw [down_length]; omega
      · rw [down_length]; omega
      · intro x hx; exact down_get _ _ _ (by omega)
      · intro x hx; exact down_get _ _ _ (by omega)
      · intro x y hx hy; simp only [cornerInterior, Prod.mk.injEq]; constructor <;> omega
    · refine Tiled.of_nest _ _ _ _ _ _ (fun x => e.first + e.halo - 1 - (x : Int))
        (fun x => e.second + e.halo - 1 - (x : Int)) ?_ ?_ ?_ ?_ ?_
      · rw [down_length]; omega
      · rw [down_length]; omega
      · intro x hx; exact down_get _ _ _ (by omega)
      · intro x hx; exact down_get _ _ _ (by omega)
      · intro x y hx hy; simp only [cornerInterior, Prod.mk.injEq]; constructor <;> omega
  · simp only [pack3, h]
    rw [hlen _ _ (by omega) (by omega)]
    refine ⟨_, rfl, ?_⟩
    rcases Bool.eq_false_or_eq_true e.rev with hr | hr <;> simp only [hr, if_true, Bool.false_eq_true, if_false]
    rotate_left
    · refine Tiled.of_nest _ _ _ _ _ _ (fun x => e.second + e.halo - 1 - (x : Int))
        (fun x => e.first - e.halo + 1 + (x : Int)) ?_ ?_ ?_ ?_ ?_
      · rw [down_length]; omega
      · rw [up_length]; omega
      · intro x hx; exact down_get _ _ _ (by omega)
      · intro x hx; exact up_get _ _ _ (by omega)
      · intro x y hx hy; simp only [cornerInterior, Prod.mk.injEq]; constructor <;> omega
    · refine Tiled.of_nest _ _ _ _ _ _ (fun x => e.first - e.halo + 1 + (x : Int))
        (fun x => e.second + e.halo - 1 - (x : Int)) ?_ ?_ ?_ ?_ ?_
      · rw [up_length]; omega
      · rw [down_length]; omega
      · intro x hx; exact up_get _ _ _ (by omega)
      · intro x hx; exact down_get _ _ _ (by omega)
      · intro x y hx hy; simp only [cornerInterior, Prod.mk.injEq]; constructor <;> omega

/-- Unpacking a corner visits the halo block outside it, outermost node first. -/
theorem unpack_corner (c : Conn) (hc : c.dir.Corner) (e : ExBuf α) (d : Field α) (he : conn e = c) :
    ∃ L, unpack3 e d = unpackRegion e d ((d.sR : Int) * (c.halo * c.halo : Nat)) L ∧
      Tiled L c.halo c.halo (fun y x => cornerHalo c.dir c.first c.second (c.halo - 1 - x) (c.halo - 1 - y)) := by
  subst he
  simp only [conn] at hc ⊢
  have hlen : ∀ (t u : Int), t = (e.halo : Int) → u = (e.halo : Int) →
      (d.sR : Int) * t * u = (d.sR : Int) * (e.halo * e.halo : Nat) := by
    intro t u ht hu
    rw [ht, hu]; push_cast; ring
  rcases hc with h | h | h | h
  · simp only [unpack3, h]
    rw [hlen _ _ (by omega) (by omega)]
    refine ⟨_, rfl, ?_⟩
    refine Tiled.of_nest _ _ _ _ _ _ (fun x => e.second + e.halo + 1 - 1 - (x : Int))
        (fun x => e.first + e.halo + 1 - 1 - (x : Int)) ?_ ?_ ?_ ?_ ?_
    · rw [down_length]; omega
    · rw [down_length]; omega
    · intro x hx; exact down_get _ _ _ (by omega)
    · intro x hx; exact down_get _ _ _ (by omega)
    · intro x y hx hy; simp only [cornerHalo, Prod.mk.injEq]; constructor <;> omega
  · simp only [unpack3, h]
    rw [hlen _ _ (by omega) (by omega)]
    refine ⟨_, rfl, ?_⟩
    refine Tiled.of_nest _ _ _ _ _ _ (fun x => e.second + e.halo + 1 - 1 - (x : Int))
        (fun x => e.first - e.halo + (x : Int)) ?_ ?_ ?_ ?_ ?_
    · rw [down_length]; omega
    · rw [up_length]; omega
    · intro x hx; exact down_get _ _ _ (by omega)
    · intro x hx; exact up_get _ _ _ (by omega)
    · intro x y hx hy; simp only [cornerHalo, Prod.mk.injEq]; constructor <;> omega
  · simp only [unpack3, h]
    rw [hlen _ _ (by omega) (by omega)]
    refine ⟨_, rfl, ?_⟩
    refine Tiled.of_nest _ _ _ _ _ _ (fun x => e.second - e.halo + (x : Int))
        (fun x => e.first - e.halo + (x : Int)) ?_ ?_ ?_ ?_ ?_
    · rw [up_length]; omega
    · rw [up_length]; omega
    · intro x hx; exact up_get _ _ _ (by omega)
    · intro x hx; exact up_get _ _ _ (by omega)
    · intro x y hx hy; simp only [cornerHalo, Prod.mk.injEq]; constructor <;> omega
  · simp only [unpack3, h]
    rw [hlen _ _ (by omega) (by omega)]
    refine ⟨_, rfl, ?_⟩
    refine Tiled.of_nest _ _ _ _ _ _ (fun x => e.second - e.halo + (x : Int))
        (fun x => e.first + e.halo + 1 - 1 - (x : Int)) ?_ ?_ ?_ ?_ ?_
    · rw [up_length]; omega
    · rw [down_length]; omega
    · intro x hx; exact up_get _ _ _ (by omega)
    · intro x hx; exact down_get _ _ _ (by omega)
    · intro x y hx hy; simp only [cornerHalo, Prod.mk.injEq]; constructor <;> omega

/-- A corner connection delivers one field. -/
theorem corner_link (sS sT : Setting) (cS cT : Conn) (hS : cS.dir.Corner) (hT : cT.dir.Corner)
    (hSh : cS.halo = sS.halo) (hTh : cT.halo = sT.halo) (hh : sT.halo = sS.halo)
    (hFS : Fits sS cS) (hFT : Fits sT cT) :
    Link (α := α) (CornerDelivered cS cT) (sS.halo * sS.halo) (sS.widthA + 2 * sS.halo)
      (sS.widthB + 2 * sS.halo) (sT.widthA + 2 * sT.halo) (sT.widthB + 2 * sT.halo) cS cT := by
  apply link_of_tiled (f := fun y x => cornerInterior cS.dir cS.first cS.second
        (if cS.rev then cS.halo - 1 - y else cS.halo - 1 - x)
        (if cS.rev then cS.halo - 1 - x else cS.halo - 1 - y))
    (g := fun y x => cornerHalo cT.dir cT.first cT.second (cT.halo - 1 - x) (cT.halo - 1 - y))
  · intro e d he hA hB
    rw [← hSh]
    exact pack_corner cS hS e d he
  · intro e d he hA hB
    rw [← hh, ← hTh]
    exact unpack_corner cT hT e d he
  · intro y x hy hx
    have h1 : (if cS.rev then cS.halo - 1 - y else cS.halo - 1 - x) < sS.halo := by split <;> omega
    have h2 : (if cS.rev then cS.halo - 1 - x else cS.halo - 1 - y) < sS.halo := by split <;> omega
    revert h1 h2
    generalize (if cS.rev then cS.halo - 1 - y else cS.halo - 1 - x) = u
    generalize (if cS.rev then cS.halo - 1 - x else cS.halo - 1 - y) = v
    intro h1 h2
    rcases hS with h | h | h | h <;> simp only [h, cornerInterior, Fits] at hFS ⊢ <;> omega
  · intro y x hy hx
    rcases hT with h | h | h | h <;> simp only [h, cornerHalo, Fits] at hFT ⊢ <;> omega
  · intro x y x' y' hx hy hx' hy' h'
    rcases hT with h | h | h | h <;> simp only [h, cornerHalo, Prod.mk.injEq] at h' <;> omega
  · intro d old new h1 h2 h3 h4 h5 hnew hval hrest
    constructor
    · rw [hnew]
    · rw [hnew]
    · rw [hnew]
    · intro x y k hx hy hk
      have := hval (sS.halo - 1 - y) (sS.halo - 1 - x) k (by omega) (by omega) hk
      simp only [(by omega : cT.halo - 1 - (sS.halo - 1 - x) = x), (by omega : cT.halo - 1 - (sS.halo - 1 - y) = y),
        (by omega : cS.halo - 1 - (sS.halo - 1 - x) = x), (by omega : cS.halo - 1 - (sS.halo - 1 - y) = y)] at this
      exact this
    · intro i j k hij
      apply hrest
      intro y x hy hx
      exact hij (cT.halo - 1 - x) (cT.halo - 1 - y) (by omega) (by omega)

end Verif.Exchange
