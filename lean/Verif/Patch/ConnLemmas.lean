/-
The connections of a patch as a list of corner registrations and side walks.
-/
import Verif.Patch.SegLemmas

namespace Verif.Patch

open Verif.Exchange (up down Dir)

theorem getD_mid {α : Type} (pre L post : List α) (d : α) (p ix : Nat) (hix : ix = pre.length + p) (hp : p < L.length) :
    (pre ++ (L ++ post)).getD ix d = L.getD p d := by
  subst hix
  simp only [List.getD_eq_getElem?_getD]
  rw [List.getElem?_append_right (by omega), Nat.add_sub_cancel_left, List.getElem?_append_left hp]

theorem getD_up {β : Type} (a b : Int) (h : Int → β) (d : β) (p : Nat) (hp : p < (b - a).toNat) :
    ((up a b).map h).getD p d = h (a + p) := by
  unfold up
  rw [List.getD_eq_getElem?_getD, List.map_map, List.getElem?_map, List.getElem?_range hp]
  rfl

theorem getD_down {β : Type} (a b : Int) (h : Int → β) (d : β) (p : Nat) (hp : p < (b - a).toNat) :
    ((down a b).map h).getD p d = h (b - 1 - p) := by
  unfold down
  rw [List.getD_eq_getElem?_getD, List.map_map, List.getElem?_map, List.getElem?_range hp]
  rfl

/-- Perimeter answers by position. -/
structure PerimeterAt (f : Int × Int × Int → Option Nat) (x : Box) (wA wB : Nat) (vec : List (Option Nat)) : Prop where
  bl : vec.getD 0 none = atNode f x (x.aInteriorBegin - 1) (x.bInteriorBegin - 1)
  bottom : ∀ p, p < wA → vec.getD (1 + p) none = faces f x .bottom (x.aInteriorBegin + p)
  br : vec.getD (wA + 1) none = atNode f x x.aInteriorEnd (x.bInteriorBegin - 1)
  right : ∀ p, p < wB → vec.getD (wA + 2 + p) none = faces f x .right (x.bInteriorBegin + p)
  tr : vec.getD (wA + wB + 2) none = atNode f x x.aInteriorEnd x.bInteriorEnd
  top : ∀ p, p < wA → vec.getD (wA + wB + 3 + p) none = faces f x .top (x.aInteriorEnd - 1 - p)
  tl : vec.getD (2 * wA + wB + 3) none = atNode f x (x.aInteriorBegin - 1) x.bInteriorEnd
  left : ∀ p, p < wB → vec.getD (2 * wA + wB + 4 + p) none = faces f x .left (x.bInteriorEnd - 1 - p)

theorem perimeter_at (f : Int × Int × Int → Option Nat) (x : Box) (wA wB : Nat) (hA : x.aInteriorWidth = wA)
    (hB : x.bInteriorWidth = wB) : PerimeterAt f x wA wB ((perimeter x).map f) := by
  have eA : (x.aGlobalInteriorEnd - x.aGlobalInteriorBegin).toNat = wA := by
    simp only [Box.aGlobalInteriorEnd, Box.aGlobalInteriorBegin, Box.aInteriorWidth] at *; omega
  have eB : (x.bGlobalInteriorEnd - x.bGlobalInteriorBegin).toNat = wB := by
    simp only [Box.bGlobalInteriorEnd, Box.bGlobalInteriorBegin, Box.bInteriorWidth] at *; omega
  have gA0 : ∀ k : Int, x.aGlobalBegin + (x.aInteriorBegin + k) = x.aGlobalInteriorBegin + k := by
    intro k; simp only [Box.aGlobalBegin, Box.aInteriorBegin, Box.aGlobalInteriorBegin]; ring
  have gA1 : ∀ k : Int, x.aGlobalBegin + (x.aInteriorEnd + k) = x.aGlobalInteriorEnd + k := by
    intro k; simp only [Box.aGlobalBegin, Box.aInteriorEnd, Box.aGlobalInteriorEnd]; ring
  have gB0 : ∀ k : Int, x.bGlobalBegin + (x.bInteriorBegin + k) = x.bGlobalInteriorBegin + k := by
    intro k; simp only [Box.bGlobalBegin, Box.bInteriorBegin, Box.bGlobalInteriorBegin]; ring
  have gB1 : ∀ k : Int, x.bGlobalBegin + (x.bInteriorEnd + k) = x.bGlobalInteriorEnd + k := by
    intro k; simp only [Box.bGlobalBegin, Box.bInteriorEnd, Box.bGlobalInteriorEnd]; ring
  have gA0' := gA0 (-1); have gB0' := gB0 (-1)
  have gA1' := gA1 0; have gB1' := gB1 0
  simp only [← sub_eq_add_neg, add_zero] at gA0' gB0' gA1' gB1'
  have hvec : (perimeter x).map f =
      [f (x.panel, x.aGlobalInteriorBegin - 1, x.bGlobalInteriorBegin - 1)] ++
      ((up x.aGlobalInteriorBegin x.aGlobalInteriorEnd).map (fun i => f (x.panel, i, x.bGlobalInteriorBegin - 1)) ++
      ([f (x.panel, x.aGlobalInteriorEnd, x.bGlobalInteriorBegin - 1)] ++
      ((up x.bGlobalInteriorBegin x.bGlobalInteriorEnd).map (fun j => f (x.panel, x.aGlobalInteriorEnd, j)) ++
      ([f (x.panel, x.aGlobalInteriorEnd, x.bGlobalInteriorEnd)] ++
      ((down x.aGlobalInteriorBegin x.aGlobalInteriorEnd).map (fun i => f (x.panel, i, x.bGlobalInteriorEnd)) ++
      ([f (x.panel, x.aGlobalInteriorBegin - 1, x.bGlobalInteriorEnd)] ++
      ((down x.bGlobalInteriorBegin x.bGlobalInteriorEnd).map (fun j => f (x.panel, x.aGlobalInteriorBegin - 1, j)) ++
        []))))))) := by
    simp only [perimeter, List.map_append, List.map_map, List.map_cons, List.map_nil, List.append_assoc,
      List.append_nil]
    rfl
  generalize hb : (up x.aGlobalInteriorBegin x.aGlobalInteriorEnd).map
    (fun i => f (x.panel, i, x.bGlobalInteriorBegin - 1)) = B at hvec
  generalize hr : (up x.bGlobalInteriorBegin x.bGlobalInteriorEnd).map
    (fun j => f (x.panel, x.aGlobalInteriorEnd, j)) = R at hvec
  generalize ht : (down x.aGlobalInteriorBegin x.aGlobalInteriorEnd).map
    (fun i => f (x.panel, i, x.bGlobalInteriorEnd)) = T at hvec
  generalize hl : (down x.bGlobalInteriorBegin x.bGlobalInteriorEnd).map
    (fun j => f (x.panel, x.aGlobalInteriorBegin - 1, j)) = L at hvec
  have lb : B.length = wA := by rw [← hb, List.length_map, length_up, eA]
  have lr : R.length = wB := by rw [← hr, List.length_map, length_up, eB]
  have lt : T.length = wA := by rw [← ht, List.length_map, length_down, eA]
  have ll : L.length = wB := by rw [← hl, List.length_map, length_down, eB]
  rw [hvec]
  constructor
  · unfold atNode; rw [gA0', gB0']; rfl
  · intro p hp
    rw [getD_mid [_] B _ none p _ (by simp) (by omega), ← hb, getD_up _ _ _ _ _ (by omega)]
    simp only [faces, facing, atNode]; rw [gA0, gB0']
  · rw [← List.append_assoc, getD_mid (_ ++ B) [_] _ none 0 _ (by simp only [List.length_append, List.length_cons, List.length_nil, lb]; omega) (by simp)]
    simp only [atNode, List.getD_cons_zero]; rw [gA1', gB0']
  · intro p hp
    rw [← List.append_assoc, ← List.append_assoc,
      getD_mid (_ ++ B ++ [_]) R _ none p _ (by simp only [List.length_append, List.length_cons, List.length_nil, lb]; omega) (by omega), ← hr, getD_up _ _ _ _ _ (by omega)]
    simp only [faces, facing, atNode]; rw [gA1', gB0]
  · rw [← List.append_assoc, ← List.append_assoc, ← List.append_assoc,
      getD_mid (_ ++ B ++ [_] ++ R) [_] _ none 0 _ (by simp [lb, lr]; omega) (by simp)]
    simp only [atNode, List.getD_cons_zero]; rw [gA1', gB1']
  · intro p hp
    rw [← List.append_assoc, ← List.append_assoc, ← List.append_assoc, ← List.append_assoc,
      getD_mid (_ ++ B ++ [_] ++ R ++ [_]) T _ none p _ (by simp [lb, lr]; omega) (by omega), ← ht,
      getD_down _ _ _ _ _ (by omega)]
    simp only [faces, facing, atNode]
    rw [gB1', show x.aInteriorEnd - 1 - (p : Int) = x.aInteriorEnd + (-1 - p) by ring, gA1]
    congr 3; ring
  · rw [← List.append_assoc, ← List.append_assoc, ← List.append_assoc, ← List.append_assoc, ← List.append_assoc,
      getD_mid (_ ++ B ++ [_] ++ R ++ [_] ++ T) [_] _ none 0 _ (by simp [lb, lr, lt]; omega) (by simp)]
    simp only [atNode, List.getD_cons_zero]; rw [gA0', gB1']
  · intro p hp
    rw [← List.append_assoc, ← List.append_assoc, ← List.append_assoc, ← List.append_assoc, ← List.append_assoc,
      ← List.append_assoc,
      getD_mid (_ ++ B ++ [_] ++ R ++ [_] ++ T ++ [_]) L _ none p _ (by simp [lb, lr, lt]; omega) (by omega), ← hl,
      getD_down _ _ _ _ _ (by omega)]
    simp only [faces, facing, atNode]
    rw [gA0', show x.bInteriorEnd - 1 - (p : Int) = x.bInteriorEnd + (-1 - p) by ring, gB1]
    congr 3; ring

theorem mem_reg {t : Option Nat} {d : Dir} {a b : Int} {r : Reg} :
    r ∈ reg t d a b ↔ t = some r.target ∧ r.dir = d ∧ r.first = a ∧ r.second = b := by
  cases t with
  | none => simp [reg]
  | some t =>
    obtain ⟨t', d', a', b'⟩ := r
    simp only [reg, List.mem_singleton, Reg.mk.injEq, Option.some.injEq]
    constructor
    · rintro ⟨rfl, rfl, rfl, rfl⟩; exact ⟨rfl, rfl, rfl, rfl⟩
    · rintro ⟨rfl, rfl, rfl, rfl⟩; exact ⟨rfl, rfl, rfl, rfl⟩

theorem nodup_reg (t : Option Nat) (d : Dir) (a b : Int) : (reg t d a b).Nodup := by
  cases t <;> simp [reg]

/-- The eight pieces of the registration list. -/
def bottomPart (f : Int × Int × Int → Option Nat) (x : Box) (n : Nat) : List Reg :=
  (sideEvs (fun p => faces f x .bottom (x.aInteriorBegin + p)) n).filterMap
    (evReg (fun t a b => ⟨t, .bottom, x.aInteriorBegin + a, x.aInteriorBegin + b⟩)
      (fun t k => ⟨t, .bottomLeft, x.aInteriorBegin + k, x.bInteriorBegin⟩)
      (fun t k => ⟨t, .bottomRight, x.aInteriorBegin + k - 1, x.bInteriorBegin⟩))

def rightPart (f : Int × Int × Int → Option Nat) (x : Box) (n : Nat) : List Reg :=
  (sideEvs (fun p => faces f x .right (x.bInteriorBegin + p)) n).filterMap
    (evReg (fun t a b => ⟨t, .right, x.bInteriorBegin + a, x.bInteriorBegin + b⟩)
      (fun t k => ⟨t, .bottomRight, x.aInteriorEnd - 1, x.bInteriorBegin + k⟩)
      (fun t k => ⟨t, .topRight, x.aInteriorEnd - 1, x.bInteriorBegin + k - 1⟩))

def topPart (f : Int × Int × Int → Option Nat) (x : Box) (n : Nat) : List Reg :=
  (sideEvs (fun p => faces f x .top (x.aInteriorEnd - 1 - p)) n).filterMap
    (evReg (fun t a b => ⟨t, .top, x.aInteriorEnd - b, x.aInteriorEnd - a⟩)
      (fun t k => ⟨t, .topRight, x.aInteriorEnd - 1 - k, x.bInteriorEnd - 1⟩)
      (fun t k => ⟨t, .topLeft, x.aInteriorEnd - 1 - k + 1, x.bInteriorEnd - 1⟩))

def leftPart (f : Int × Int × Int → Option Nat) (x : Box) (n : Nat) : List Reg :=
  (sideEvs (fun p => faces f x .left (x.bInteriorEnd - 1 - p)) n).filterMap
    (evReg (fun t a b => ⟨t, .left, x.bInteriorEnd - b, x.bInteriorEnd - a⟩)
      (fun t k => ⟨t, .topLeft, x.aInteriorBegin, x.bInteriorEnd - 1 - k⟩)
      (fun t k => ⟨t, .bottomLeft, x.aInteriorBegin, x.bInteriorEnd - 1 - k + 1⟩))

theorem connectionsOf_eq (f : Int × Int × Int → Option Nat) (x : Box) (nA nB : Nat) (vec : List (Option Nat))
    (h : PerimeterAt f x (nA + 1) (nB + 1) vec) :
    connectionsOf x (nA + 1) (nB + 1) vec =
      reg (atNode f x (x.aInteriorBegin - 1) (x.bInteriorBegin - 1)) .bottomLeft x.aInteriorBegin x.bInteriorBegin ++
      bottomPart f x nA ++
      reg (atNode f x x.aInteriorEnd (x.bInteriorBegin - 1)) .bottomRight (x.aInteriorEnd - 1) x.bInteriorBegin ++
      rightPart f x nB ++
      reg (atNode f x x.aInteriorEnd x.bInteriorEnd) .topRight (x.aInteriorEnd - 1) (x.bInteriorEnd - 1) ++
      topPart f x nA ++
      reg (atNode f x (x.aInteriorBegin - 1) x.bInteriorEnd) .topLeft x.aInteriorBegin (x.bInteriorEnd - 1) ++
      leftPart f x nB := by
  have hb := walkUp_evs vec x.aInteriorBegin 1 .bottom .bottomLeft .bottomRight (fun i => (i, x.bInteriorBegin))
    (fun i => (i - 1, x.bInteriorBegin)) (fun p => faces f x .bottom (x.aInteriorBegin + p)) (nA + 1) 0 0
    (vec.getD 1 none) (by intro p hp; exact h.bottom p (by omega))
  have hr := walkUp_evs vec x.bInteriorBegin (nA + 1 + 2) .right .bottomRight .topRight
    (fun j => (x.aInteriorEnd - 1, j)) (fun j => (x.aInteriorEnd - 1, j - 1))
    (fun p => faces f x .right (x.bInteriorBegin + p)) (nB + 1) 0 0
    (vec.getD (nA + 1 + 2) none) (by intro p hp; exact h.right p (by omega))
  have ht := walkDown_evs vec x.aInteriorEnd (nA + 1 + (nB + 1) + 3) .top .topRight .topLeft
    (fun i => (i, x.bInteriorEnd - 1)) (fun i => (i + 1, x.bInteriorEnd - 1))
    (fun p => faces f x .top (x.aInteriorEnd - 1 - p)) (nA + 1) 0 0
    (vec.getD (nA + 1 + (nB + 1) + 3) none) (by intro p hp; exact h.top p (by omega))
  have hl := walkDown_evs vec x.bInteriorEnd (2 * (nA + 1) + (nB + 1) + 4) .left .topLeft .bottomLeft
    (fun j => (x.aInteriorBegin, j)) (fun j => (x.aInteriorBegin, j + 1))
    (fun p => faces f x .left (x.bInteriorEnd - 1 - p)) (nB + 1) 0 0
    (vec.getD (2 * (nA + 1) + (nB + 1) + 4) none) (by intro p hp; exact h.left p (by omega))
  simp only [Nat.cast_zero, add_zero, sub_zero] at hb hr ht hl
  unfold connectionsOf
  rw [hb, hr, ht, hl, h.bl, h.br, h.tr, h.tl]
  have b0 := h.bottom 0 (by omega)
  have r0 := h.right 0 (by omega)
  have t0 := h.top 0 (by omega)
  have l0 := h.left 0 (by omega)
  simp only [Nat.add_zero] at b0 r0 t0 l0
  rw [b0, r0, t0, l0]
  rfl

end Verif.Patch
