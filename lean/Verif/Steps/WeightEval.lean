/-
The weights of every driver.
-/
import Verif.Steps.Weights
import Verif.Steps.Programs
import Verif.Steps.Schemes

namespace Verif.Steps

section
variable {K V W : Type*} [Field K] [DecidableEq K] [AddCommGroup V] [Module K V] [AddCommGroup W] [Module K W]

/-- The drivers as groups of calls with the explicit call they use.  (`strang` here is the first step of a run;
`splitExp` is composed separately.) -/
def Erk.macs : Erk → K → List (Mac K)
  | .forwardEuler => eulerM
  | .rungeKutta4 => rk4M
  | .rungeKuttaSSP3 => ssp3M
  | .kinnmarkGrayUllrich35 => kgu35M
  | .rungeKuttaSSPRK53 => ssprk53M

omit [DecidableEq K] in
theorem block_eq (m : Erk) (ex) (dt : K) : m.block ex dt = expandAll ex (m.macs dt) := by
  cases m
  · exact euler_eq ex dt
  · exact rk4_eq ex dt
  · exact ssp3_eq ex dt
  · exact kgu35_eq ex dt
  · exact ssprk53_eq ex dt

def pcs (l : List (Mac K)) : List (Pc K) := l.map .mac
def pcB (r a b w : Nat) (dt : K) : List (Pc K) := [.mac (.copy r a), .after a b w dt, .mac (.copy b 0)]
def pcA (r w : Nat) (dt : K) : List (Pc K) := [.mac (.copy r 0), .after r 0 w dt]

omit [DecidableEq K] in
theorem expandPc_append (ex : Nat → Nat → K → List (Cmd K)) (p q : List (Pc K)) :
    expandPc ex (p ++ q) = expandPc ex p ++ expandPc ex q := List.flatMap_append ..

omit [DecidableEq K] in
theorem expandPc_pcs (ex : Nat → Nat → K → List (Cmd K)) (p : List (Mac K)) : expandPc ex (pcs p) = expandAll ex p := by
  induction p with
  | nil => rfl
  | cons m p ih => simp only [pcs, List.map_cons, expandPc, List.flatMap_cons, expandAll, Pc.expand] at ih ⊢; rw [ih]

def ark232P (γ δ α dt : K) : List (Pc K) :=
  [.mac (.copy 0 1), .mac (.exp 0 1 (2 * γ * dt / 2)), .mac (.copy 1 0), .mac (.copy 0 1),
   .mac (.exp 0 1 (2 * γ * dt / 2)), .mac (.copy 1 2), .impx 1 2 (γ * dt / 1), .mac (.copyS 2 3), .mac (.imp 3 (γ * dt)),
   .mac (.comb [1 - (1 - α) / (2 * γ), (1 - α) / (2 * γ) - δ / γ, δ / γ - δ / γ, δ / γ, 0, 0, 0] 6),
   .mac (.copy 6 4), .mac (.exp 3 4 (α * dt)), .mac (.copyS 4 5), .mac (.imp 5 (γ * dt)),
   .mac (.comb [1 - δ / (2 * γ), δ / (2 * γ) - δ / γ, δ / γ - δ / γ, δ / γ, δ / α - γ / γ, γ / γ, -δ / α, 0] 7),
   .mac (.exp 5 7 (γ * dt)), .mac (.copy 7 2), .after 7 1 3 dt, .mac (.copy 1 0)]

def strangP (oc : K) (m : Erk) (first last : Bool) (dt : K) : List (Pc K) :=
  (if first then [.mac (.impH 0 (1 / 2 * dt))] else [.mac (.comb [1, 1] 0), .filt 0]) ++ pcs (m.macs dt) ++
  [.mac (.copy 4 1), .after 4 1 2 dt, .mac (.copy 1 0), .mac (.impH 0 (1 / 2 * (1 + oc) * dt)),
   .mac (.comb [(2 - oc) / 2, oc / 2] 0)] ++ (if last then [] else [.mac (.comb [1, -1] 1)])

def smallP (last : Bool) (n dt : K) : List (Pc K) :=
  [.mac (.copy 0 1), .mac (.exp 0 1 (dt / n)), .mac (.comb [3 / 4, 1 / 4, 0] 2), .mac (.exp 1 2 (1 / 4 * dt / n)),
   .mac (.comb [1 / 3, 0, 2 / 3, 0, 0] 4), .mac (.exp 2 4 (2 / 3 * dt / n))] ++
  (if last then [.mac (.copy 4 1), .after 4 1 2 dt, .mac (.copy 1 0)] else [.mac (.copy 4 0)])

def ark4P (dt : K) : List (Pc K) :=
  [.copy1 0 1, .impHA 0 1 (ent ark4I 0 0 * dt),
   .comb1 [-1 / (dt * ent ark4I 0 0), 1 / (dt * ent ark4I 0 0), 0, 0] 3,
   .comb1 (ark4U 1 dt) 1, .mac (.exp 0 1 (ent ark4E 1 0 * dt)),
   .comb1 [-1 / (dt * ent ark4E 1 0), 1 / (dt * ent ark4E 1 0), 0, -ent ark4I 0 0 / ent ark4E 1 0, 0] 4,
   .copy1 1 2, .impA 1 2 (ent ark4I 1 1 * dt),
   .comb1 [-1 / (dt * ent ark4I 1 1), 0, 1 / (dt * ent ark4I 1 1), -ent ark4I 0 0 / ent ark4I 1 1,
     -ent ark4E 1 0 / ent ark4I 1 1, 0] 5,
   .comb1 (ark4U 2 dt) 1, .mac (.exp 2 1 (ent ark4E 2 1 * dt)),
   .comb1 (ark4Kh 2 dt) 6, .copy1 1 2, .impA 1 2 (ent ark4I 2 2 * dt),
   .comb1 [-1 / (dt * ent ark4I 2 2), 0, 1 / (dt * ent ark4I 2 2), -ent ark4I 1 0 / ent ark4I 2 2,
     -ent ark4E 2 0 / ent ark4I 2 2, -ent ark4I 2 1 / ent ark4I 2 2, -ent ark4E 2 1 / ent ark4I 2 2, 0] 7,
   .comb1 (ark4U 3 dt) 1, .mac (.exp 2 1 (ent ark4I 2 2 * dt)),
   .comb1 (ark4Kh 3 dt) 8, .copy1 1 2, .impA 1 2 (ent ark4I 3 3 * dt), .comb1 (ark4K 3 dt) 9,
   .comb1 (ark4U 4 dt) 1, .mac (.exp 2 1 (ent ark4E 4 3 * dt)),
   .comb1 (ark4Kh 4 dt) 10, .comb1 (ark4U 4 dt) 2, .impA 2 2 (ent ark4I 4 4 * dt), .comb1 (ark4K 4 dt) 11,
   .comb1 (ark4U 5 dt) 1, .mac (.exp 2 1 (ent ark4E 5 4 * dt)),
   .comb1 (ark4Kh 5 dt) 12, .copy1 1 2, .impA 1 2 (ent ark4I 5 5 * dt), .comb1 (ark4K 5 dt) 13,
   .comb1 (ark4U 6 dt) 1, .mac (.exp 2 1 (ent ark4E 6 5 * dt)), .copy1 1 2, .impA 1 2 (ent ark4E 6 5 * dt),
   .copy1 2 1, .after 2 1 3 dt, .copy1 1 0]

/-- The groups of calls of a scheme (other than the split-explicit one). -/
def Scheme.pieces : Scheme K → K → List (Pc K)
  | .erk m, dt => pcs (m.macs dt) ++ pcA 4 2 dt
  | .strang m oc first last, dt => strangP oc m first last dt
  | .ars222 γ δ, dt => pcs (ars222M γ δ dt) ++ pcB 3 2 1 3 dt
  | .ars232 γ δ, dt => pcs (ars232M γ δ dt) ++ pcB 6 2 1 6 dt
  | .ars343 T, dt => pcs (ars343M T dt) ++ pcA 1 2 dt
  | .ars343b T, dt => pcs (ars343bM T dt) ++ [.afterC 0 1 dt]
  | .ars443, dt => pcs (ars443M dt) ++ pcB 9 2 1 9 dt
  | .ssp3332 γ, dt => pcs (ssp3332M γ dt) ++ pcB 1 2 1 3 dt
  | .gark2 γ α, dt => pcs (gark2M γ α dt) ++ pcB 4 2 1 4 dt
  | .ark232 γ δ α, dt => ark232P γ δ α dt
  | .ark4, dt => ark4P dt
  | .splitExp _, _ => []

/-- The explicit call a scheme makes. -/
def Scheme.ex : Scheme K → Nat → Nat → K → List (Cmd K)
  | .erk _ => expH
  | .ars343b _ => expH
  | _ => expHV

omit [DecidableEq K] in
theorem expand_A (ex : Nat → Nat → K → List (Cmd K)) (r w : Nat) (dt : K) : expandPc ex (pcA r w dt) = tailA r w dt := rfl
omit [DecidableEq K] in
theorem expand_B (ex : Nat → Nat → K → List (Cmd K)) (r a b w : Nat) (dt : K) :
    expandPc ex (pcB r a b w dt) = tailB r a b w dt := rfl

omit [DecidableEq K] in
theorem ark232_eq (γ δ α dt : K) : ark232 γ δ α dt = expandPc expHV (ark232P γ δ α dt) := by
  simp only [ark232, ark232P, ark232Sub, expandPc, Pc.expand, Mac.expand, List.flatMap_cons, List.flatMap_nil,
    List.append_assoc, List.append_nil, List.cons_append, List.nil_append]

omit [DecidableEq K] in
theorem ark4_eq (dt : K) : ark4 dt = expandPc expHV (ark4P dt) := by
  delta Steps.ark4 Steps.ark4P expandPc
  simp only [Pc.expand, Mac.expand, List.flatMap_cons, List.flatMap_nil, List.append_assoc, List.append_nil,
      List.cons_append, List.nil_append]

omit [DecidableEq K] in
theorem pieces_eq (S : Scheme K) (hS : ∀ ns, S ≠ .splitExp ns) (dt : K) : S.prog dt = expandPc S.ex (S.pieces dt) := by
  cases S with
  | erk m =>
    simp only [Scheme.prog, Scheme.pieces, Scheme.ex, expandPc_append, expandPc_pcs, erkStep, block_eq, expand_A, tailA,
      List.append_assoc]
  | strang m oc f l =>
    simp only [Scheme.prog, Scheme.pieces, Scheme.ex, strangP, expandPc_append, expandPc_pcs, strangStep, block_eq,
      strangStart, List.append_assoc]
    cases f <;> cases l <;> simp [expandPc, Pc.expand, Mac.expand, comb2, copy2]
  | ars222 γ δ => simp only [Scheme.prog, Scheme.pieces, Scheme.ex, expandPc_append, expandPc_pcs, ars222_eq, expand_B]
  | ars232 γ δ => simp only [Scheme.prog, Scheme.pieces, Scheme.ex, expandPc_append, expandPc_pcs, ars232_eq, expand_B]
  | ars343 T => simp only [Scheme.prog, Scheme.pieces, Scheme.ex, expandPc_append, expandPc_pcs, ars343_eq, expand_A]
  | ars343b T => simp only [Scheme.prog, Scheme.pieces, Scheme.ex, expandPc_append, expandPc_pcs, ars343b_eq]; rfl
  | ars443 => simp only [Scheme.prog, Scheme.pieces, Scheme.ex, expandPc_append, expandPc_pcs, ars443_eq, expand_B]
  | ssp3332 γ => simp only [Scheme.prog, Scheme.pieces, Scheme.ex, expandPc_append, expandPc_pcs, ssp3332_eq, expand_B]
  | gark2 γ α => simp only [Scheme.prog, Scheme.pieces, Scheme.ex, expandPc_append, expandPc_pcs, gark2_eq, expand_B]
  | ark232 γ δ α => exact ark232_eq γ δ α dt
  | ark4 => exact ark4_eq dt
  | splitExp ns => exact absurd rfl (hS ns)

omit [DecidableEq K] in
theorem small_eq (last : Bool) (n dt : K) : splitSmall last n dt = expandPc expV (smallP last n dt) := by
  cases last <;> rfl

/-- The weights work out: every call is made on fields of weight one, and the final weights satisfy `fin`. -/
def wOK (fin : List (Option K) → Prop) (p : List (Pc K)) (S : Wt K) : Prop :=
  match wRun p S with
  | some S' => S'.need ∧ fin S'.slots
  | none => False

/-- The current state has weight one. -/
def one0 (l : List (Option K)) : Prop := wAt l 0 = some 1
/-- The current state has weight one and the carried-over increment weight zero. -/
def one0' (l : List (Option K)) : Prop := wAt l 0 = some 1 ∧ wAt l 1 = some 0


variable {fin : List (Option K) → Prop}

theorem wOK_nil {l : List (Option K)} (h : fin l) : wOK fin [] ⟨l, True⟩ := ⟨trivial, h⟩

theorem wOK_next {m : Pc K} {ms : List (Pc K)} {l l' : List (Option K)} {N : Prop}
    (h : wStep m ⟨l, True⟩ = some ⟨l', N⟩) (hN : N) (hs : wOK fin ms ⟨l', True⟩) : wOK fin (m :: ms) ⟨l, True⟩ := by
  have : N = True := by simp [hN]
  subst this
  simp only [wOK, wRun, h, Option.bind_some] at hs ⊢
  exact hs

theorem wOK_copy {s t : Nat} {ms : List (Pc K)} {l : List (Option K)} {w : K} (hs : wAt l s = some w)
    (ht : t < l.length) (h : wOK fin ms ⟨l.set t (some w), True⟩) : wOK fin (.mac (.copy s t) :: ms) ⟨l, True⟩ :=
  wOK_next (N := True) (l' := l.set t (some w)) (by simp [wStep, Wt.copy, hs, ht]) trivial h

theorem wOK_copyS {s t : Nat} {ms : List (Pc K)} {l : List (Option K)} {w : K} (hs : wAt l s = some w)
    (ht : t < l.length) (h : wOK fin ms ⟨l.set t (some w), True⟩) : wOK fin (.mac (.copyS s t) :: ms) ⟨l, True⟩ :=
  wOK_next (N := True) (l' := l.set t (some w)) (by simp [wStep, Wt.copy, hs, ht]) trivial h

theorem wOK_copy1 {s t : Nat} {ms : List (Pc K)} {l : List (Option K)} {w : K} (hs : wAt l s = some w)
    (ht : t < l.length) (h : wOK fin ms ⟨l.set t (some w), True⟩) : wOK fin (.copy1 s t :: ms) ⟨l, True⟩ :=
  wOK_next (N := True) (l' := l.set t (some w)) (by simp [wStep, Wt.copy, hs, ht]) trivial h

theorem wOK_comb {c : List K} {t : Nat} {ms : List (Pc K)} {l : List (Option K)} (w : K) (hs : wDot c l = some w)
    (h1 : t < c.length) (h2 : c.length ≤ l.length) (h : wOK fin ms ⟨l.set t (some w), True⟩) :
    wOK fin (.mac (.comb c t) :: ms) ⟨l, True⟩ :=
  wOK_next (N := True) (l' := l.set t (some w)) (by simp [wStep, Wt.comb, hs, h1, h2]) trivial h

theorem wOK_comb1 {c : List K} {t : Nat} {ms : List (Pc K)} {l : List (Option K)} (w : K) (hs : wDot c l = some w)
    (h1 : t < c.length) (h2 : c.length ≤ l.length) (h : wOK fin ms ⟨l.set t (some w), True⟩) :
    wOK fin (.comb1 c t :: ms) ⟨l, True⟩ :=
  wOK_next (N := True) (l' := l.set t (some w)) (by simp [wStep, Wt.comb, hs, h1, h2]) trivial h

theorem wOK_exp {a u : Nat} {c : K} {ms : List (Pc K)} {l : List (Option K)} (ha : wAt l a = some 1)
    (hu : wAt l u = some 1) (hne : a ≠ u) (h : wOK fin ms ⟨l.set u (some 1), True⟩) :
    wOK fin (.mac (.exp a u c) :: ms) ⟨l, True⟩ :=
  wOK_next (N := True ∧ (1 : K) = 1 ∧ (1 : K) = 1) (l' := l.set u (some 1)) (by simp [wStep, Wt.dyn, ha, hu, hne])
    ⟨trivial, rfl, rfl⟩ h

theorem wOK_imp {u : Nat} {c : K} {ms : List (Pc K)} {l : List (Option K)}
    (hu : wAt l u = some 1) (h : wOK fin ms ⟨l.set u (some 1), True⟩) : wOK fin (.mac (.imp u c) :: ms) ⟨l, True⟩ :=
  wOK_next (N := True ∧ (1 : K) = 1 ∧ (1 : K) = 1) (l' := l.set u (some 1)) (by simp [wStep, Wt.dyn, hu])
    ⟨trivial, rfl, rfl⟩ h

theorem wOK_impN {u : Nat} {c : K} {ms : List (Pc K)} {l : List (Option K)}
    (hu : wAt l u = some 1) (h : wOK fin ms ⟨l.set u (some 1), True⟩) : wOK fin (.mac (.impN u c) :: ms) ⟨l, True⟩ :=
  wOK_next (N := True ∧ (1 : K) = 1 ∧ (1 : K) = 1) (l' := l.set u (some 1)) (by simp [wStep, Wt.dyn, hu])
    ⟨trivial, rfl, rfl⟩ h

theorem wOK_impH {u : Nat} {c : K} {ms : List (Pc K)} {l : List (Option K)}
    (hu : wAt l u = some 1) (h : wOK fin ms ⟨l.set u (some 1), True⟩) : wOK fin (.mac (.impH u c) :: ms) ⟨l, True⟩ :=
  wOK_next (N := True ∧ (1 : K) = 1 ∧ (1 : K) = 1) (l' := l.set u (some 1)) (by simp [wStep, Wt.dyn, hu])
    ⟨trivial, rfl, rfl⟩ h

theorem wOK_filt {u : Nat} {ms : List (Pc K)} {l : List (Option K)}
    (hu : wAt l u = some 1) (h : wOK fin ms ⟨l.set u (some 1), True⟩) : wOK fin (.filt u :: ms) ⟨l, True⟩ :=
  wOK_next (N := True ∧ (1 : K) = 1 ∧ (1 : K) = 1) (l' := l.set u (some 1)) (by simp [wStep, Wt.dyn, hu])
    ⟨trivial, rfl, rfl⟩ h

theorem wOK_impx {a u : Nat} {c : K} {ms : List (Pc K)} {l : List (Option K)} (ha : wAt l a = some 1)
    (hu : wAt l u = some 1) (h : wOK fin ms ⟨l.set u (some 1), True⟩) : wOK fin (.impx a u c :: ms) ⟨l, True⟩ :=
  wOK_next (N := True ∧ (1 : K) = 1 ∧ (1 : K) = 1) (l' := l.set u (some 1)) (by simp [wStep, Wt.dyn, ha, hu])
    ⟨trivial, rfl, rfl⟩ h

theorem wOK_impA {a u : Nat} {c : K} {ms : List (Pc K)} {l : List (Option K)} (ha : wAt l a = some 1)
    (hu : wAt l u = some 1) (h : wOK fin ms ⟨l.set u (some 1), True⟩) : wOK fin (.impA a u c :: ms) ⟨l, True⟩ :=
  wOK_next (N := True ∧ (1 : K) = 1 ∧ (1 : K) = 1) (l' := l.set u (some 1)) (by simp [wStep, Wt.dyn, ha, hu])
    ⟨trivial, rfl, rfl⟩ h

theorem wOK_impHA {a u : Nat} {c : K} {ms : List (Pc K)} {l : List (Option K)} (ha : wAt l a = some 1)
    (hu : wAt l u = some 1) (hne : a ≠ u) (h : wOK fin ms ⟨l.set u (some 1), True⟩) :
    wOK fin (.impHA a u c :: ms) ⟨l, True⟩ :=
  wOK_next (N := True ∧ (1 : K) = 1 ∧ (1 : K) = 1) (l' := l.set u (some 1)) (by simp [wStep, Wt.dyn, ha, hu, hne])
    ⟨trivial, rfl, rfl⟩ h

theorem wOK_after {a u w : Nat} {c : K} {ms : List (Pc K)} {l : List (Option K)} (ha : wAt l a = some 1)
    (hc : a ≠ w ∧ u ≠ w ∧ u < l.length ∧ w < l.length) (h : wOK fin ms ⟨(l.set u (some 1)).set w none, True⟩) :
    wOK fin (.after a u w c :: ms) ⟨l, True⟩ :=
  wOK_next (N := True ∧ (1 : K) = 1) (l' := (l.set u (some 1)).set w none) (by simp [wStep, Wt.diffuse, ha, hc])
    ⟨trivial, rfl⟩ h

theorem wOK_afterC {u w : Nat} {c : K} {ms : List (Pc K)} {l : List (Option K)} (ha : wAt l u = some 1)
    (hc : u ≠ w ∧ u < l.length ∧ w < l.length) (h : wOK fin ms ⟨(l.set u (some 1)).set w none, True⟩) :
    wOK fin (.afterC u w c :: ms) ⟨l, True⟩ :=
  wOK_next (N := True ∧ (1 : K) = 1) (l' := (l.set u (some 1)).set w none) (by simp [wStep, Wt.diffuse, ha, hc])
    ⟨trivial, rfl⟩ h

theorem wOK_expC {is : List Nat} {cs : List K} {a u : Nat} {c : K} {ms : List (Pc K)} {l : List (Option K)}
    (ha : wAt l a = some 1) (hd : wDot cs (wPick l is) = some 1)
    (hc : is.length = cs.length ∧ is ≠ [] ∧ u ∉ is.tail ∧ u < l.length ∧ (∀ i ∈ is, i < l.length))
    (h : wOK fin ms ⟨l.set u (some 1), True⟩) : wOK fin (.mac (.expC is cs a u c) :: ms) ⟨l, True⟩ :=
  wOK_next (N := True ∧ (1 : K) = 1 ∧ (1 : K) = 1) (l' := l.set u (some 1))
    (by simp only [wStep, Wt.expC, ha, hd, if_pos hc]) ⟨trivial, rfl, rfl⟩ h

theorem wOK_impC {a u : Nat} {c : K} {ms : List (Pc K)} {l : List (Option K)} (ha : wAt l a = some 1)
    (hu : u < l.length) (h : wOK fin ms ⟨l.set u (some 1), True⟩) : wOK fin (.mac (.impC a u c) :: ms) ⟨l, True⟩ :=
  wOK_next (N := True ∧ (1 : K) = 1) (l' := l.set u (some 1)) (by simp [wStep, Wt.impC, ha, hu])
    ⟨trivial, rfl⟩ h

attribute [local irreducible] wOK

/-- Evaluate a combination of weights. -/
local macro "wdot" : tactic => `(tactic| (
  simp [wDot, wPick, wInit, List.replicate, ark4U, ark4Known, ark4Kh, ark4K, ark4Minus, List.range, List.range.loop, u2c, u3c, u4c] <;> ring_nf <;> try simp))
local macro "flatP" : tactic => `(tactic| (
  simp only [Scheme.pieces, pcs, pcA, pcB, Erk.macs, eulerM, rk4M, ssp3M, kgu35M, ars222M, ars232M, ars343M, ars343bM,
    ars443M, ssp3332M, gark2M, ark232P, strangP, smallP, List.map_cons, List.map_nil,
    List.cons_append, List.nil_append, List.append_nil, if_true, if_false, Bool.false_eq_true]))
local macro "wstep" : tactic => `(tactic| first
  | exact wOK_nil (fin := one0) rfl
  | exact wOK_nil (fin := one0') ⟨rfl, rfl⟩
  | refine wOK_copy rfl (by simp [wInit]) ?_
  | refine wOK_copyS rfl (by simp [wInit]) ?_
  | refine wOK_copy1 rfl (by simp [wInit]) ?_
  | refine wOK_exp rfl rfl (by decide) ?_
  | refine wOK_imp rfl ?_
  | refine wOK_impN rfl ?_
  | refine wOK_impH rfl ?_
  | refine wOK_filt rfl ?_
  | refine wOK_impx rfl rfl ?_
  | refine wOK_impA rfl rfl ?_
  | refine wOK_impHA rfl rfl (by decide) ?_
  | refine wOK_after rfl (by simp [wInit]) ?_
  | refine wOK_afterC rfl (by simp [wInit]) ?_
  | refine wOK_impC rfl (by simp [wInit]) ?_
  | (refine wOK_expC rfl ?_ (by simp [wInit, u2c, u3c, u4c]) ?_; focus (wdot; done))
  | (refine wOK_comb 1 ?_ (by simp [u2c, u3c, u4c]) (by simp [wInit, u2c, u3c, u4c]) ?_; focus (wdot; done))
  | (refine wOK_comb 0 ?_ (by simp [u2c, u3c, u4c]) (by simp [wInit, u2c, u3c, u4c]) ?_; focus (wdot; done))
  | (refine wOK_comb1 1 ?_ (by simp [ark4U, ark4Known, List.range, List.range.loop]) (by simp [wInit, ark4U, ark4Known, List.range, List.range.loop]) ?_; focus (wdot; done))
  | (refine wOK_comb1 0 ?_ (by simp [ark4U, ark4Known, ark4Kh, ark4K, ark4Minus, List.range, List.range.loop]) (by simp [wInit, ark4U, ark4Known, ark4Kh, ark4K, ark4Minus, List.range, List.range.loop]) ?_; focus (wdot; done)))
local macro "wEval" : tactic => `(tactic| ((try flatP); (try simp only [wInit, List.replicate]); repeat (wstep; (try simp only [List.set_cons_zero, List.set_cons_succ]))))

theorem w_erk [CharZero K] (m : Erk) (hm : m ≠ .rungeKuttaSSPRK53) (dt : K) :
    wOK one0 ((Scheme.erk m).pieces dt) (wInit 4) := by
  cases m with
  | rungeKuttaSSPRK53 => exact absurd rfl hm
  | _ => wEval

theorem w_222 (γ δ : K) (dt : K) :
    wOK one0 ((Scheme.ars222 γ δ).pieces dt) (wInit 3) := by
  wEval

theorem w_232 (γ δ : K) (dt : K) :
    wOK one0 ((Scheme.ars232 γ δ).pieces dt) (wInit 6) := by
  wEval

theorem w_gark2 (γ α : K) (dt : K) :
    wOK one0 ((Scheme.gark2 γ α).pieces dt) (wInit 4) := by
  wEval

theorem w_343 (T : Tab343 K) (dt : K) :
    wOK one0 ((Scheme.ars343 T).pieces dt) (wInit 6) := by
  wEval

theorem w_343b (T : Tab343 K) (dt : K) :
    wOK one0 ((Scheme.ars343b T).pieces dt) (wInit 6) := by
  wEval

theorem w_443 [CharZero K] (dt : K) :
    wOK one0 ((Scheme.ars443).pieces dt) (wInit 9) := by
  wEval

theorem w_3332 [CharZero K] (γ : K) (dt : K) :
    wOK one0 ((Scheme.ssp3332 γ).pieces dt) (wInit 8) := by
  wEval

theorem w_ark232 (γ δ α : K) (dt : K) :
    wOK one0 ((Scheme.ark232 γ δ α).pieces dt) (wInit 7) := by
  wEval

theorem w_strang_true_true [CharZero K] (m : Erk) (hm : m ≠ .rungeKuttaSSPRK53) (oc dt : K) :
    wOK one0 (strangP oc m true true dt) (wInit 4) := by
  cases m with
  | rungeKuttaSSPRK53 => exact absurd rfl hm
  | _ => wEval

theorem w_strang_true_false [CharZero K] (m : Erk) (hm : m ≠ .rungeKuttaSSPRK53) (oc dt : K) :
    wOK one0' (strangP oc m true false dt) (wInit 4) := by
  cases m with
  | rungeKuttaSSPRK53 => exact absurd rfl hm
  | _ => wEval

theorem w_strang_false_true [CharZero K] (m : Erk) (hm : m ≠ .rungeKuttaSSPRK53) (oc dt : K) :
    wOK one0 (strangP oc m false true dt) ⟨[some 1, some 0, none, none, none], True⟩ := by
  cases m with
  | rungeKuttaSSPRK53 => exact absurd rfl hm
  | _ => wEval

theorem w_strang_false_false [CharZero K] (m : Erk) (hm : m ≠ .rungeKuttaSSPRK53) (oc dt : K) :
    wOK one0' (strangP oc m false false dt) ⟨[some 1, some 0, none, none, none], True⟩ := by
  cases m with
  | rungeKuttaSSPRK53 => exact absurd rfl hm
  | _ => wEval

theorem w_small [CharZero K] (last : Bool) (n dt : K) :
    wOK one0 (smallP last n dt) ⟨[some 1, none, none, none, none, none], True⟩ := by
  cases last <;> wEval

theorem w_large [CharZero K] (dt : K) :
    wOK one0 (pcs (kgu35M dt) ++ [.mac (.copy 4 0)]) ⟨[some 1, none, none, none, none, none], True⟩ := by
  wEval

theorem w_ark4 [CharZero K] (dt : K) :
    wOK one0 (ark4P dt) (wInit 13) := by
  delta ark4P; wEval

end

end Verif.Steps
