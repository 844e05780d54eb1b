/-
The drivers as groups of calls, and their symbolic execution.
-/
import Verif.Steps.Symbolic
import Verif.Steps.Tableaux

namespace Verif.Steps

variable {K : Type*} [Field K]

def eulerM (dt : K) : List (Mac K) := [.copy 0 4, .exp 0 4 dt]

def rk4M (dt : K) : List (Mac K) :=
  [.copy 0 1, .exp 0 1 (1 / 2 * dt), .copy 0 2, .exp 1 2 (1 / 2 * dt), .copy 0 3, .exp 2 3 dt,
   .comb [-1 / 3, 1 / 3, 2 / 3, 1 / 3, 0] 4, .exp 3 4 (dt / 6)]

def ssp3M (dt : K) : List (Mac K) :=
  [.copy 0 1, .exp 0 1 dt, .comb [3 / 4, 1 / 4, 0] 2, .exp 1 2 (1 / 4 * dt),
   .comb [1 / 3, 0, 2 / 3, 0, 0] 4, .exp 2 4 (2 / 3 * dt)]

def kgu35M (dt : K) : List (Mac K) :=
  [.copy 0 1, .exp 0 1 (dt / 5), .copy 0 2, .exp 1 2 (dt / 5), .copy 0 3, .exp 2 3 (dt / 3),
   .copy 0 2, .exp 3 2 (2 * dt / 3), .comb [-1 / 4, 5 / 4, 0, 0, 0] 4, .exp 2 4 (3 * dt / 4)]

def ssprk53M (dt : K) : List (Mac K) :=
  [.copy 0 1, .exp 0 1 (377268915331368 / 10 ^ 15 * dt), .copy 1 2, .exp 1 2 (377268915331368 / 10 ^ 15 * dt),
   .comb [355909775063327 / 10 ^ 15, 0, 644090224936674 / 10 ^ 15, 0] 3,
   .exp 2 3 (242995220537396 / 10 ^ 15 * dt),
   .comb [367933791638137 / 10 ^ 15, 0, 0, 632066208361863 / 10 ^ 15] 0,
   .exp 3 0 (238458932846290 / 10 ^ 15 * dt),
   .comb [762406163401431 / 10 ^ 15, 0, 237593836598569 / 10 ^ 15, 0, 0] 4,
   .exp 0 4 (287632146308408 / 10 ^ 15 * dt)]

def ars222M (γ δ dt : K) : List (Mac K) :=
  [.copy 0 1, .exp 0 1 (γ * dt), .copyS 1 2, .imp 2 (γ * dt),
   .comb [1 - δ / γ, δ / γ - (1 - γ) / γ, (1 - γ) / γ, 0] 3, .exp 2 3 ((1 - δ) * dt), .imp 3 (γ * dt)]

def ars232M (γ δ dt : K) : List (Mac K) :=
  [.copy 0 1, .exp 0 1 (γ * dt), .copy 1 2, .impN 2 (γ * dt),
   .comb [1 - δ / γ, δ / γ - (1 - γ) / γ, (1 - γ) / γ, 0, 0, 0] 5,
   .copy 5 3, .exp 2 3 ((1 - δ) * dt), .copy 3 4, .impN 4 (γ * dt),
   .comb [1 - 0 / γ, 0 / γ - (1 - γ) / γ, (1 - γ) / γ, (1 - γ) / (1 - δ) - γ / γ, γ / γ,
    -(1 - γ) / (1 - δ), 0] 6, .exp 4 6 (γ * dt)]

def ars343M (T : Tab343 K) (dt : K) : List (Mac K) :=
  [.copy 0 1, .exp 0 1 (T.γ * dt), .copy 1 2, .impH 2 (T.γ * dt),
   .comb (u2c T ++ [0, 0, 0, 0]) 3, .exp 2 3 (T.a32 * dt), .copy 3 4, .impH 4 (T.γ * dt),
   .comb (u3c T ++ [0, 0]) 5, .exp 4 5 (T.a43 * dt), .copy 5 6, .impH 6 (T.γ * dt),
   .comb (u4c T) 1, .exp 6 1 (T.γ * dt)]

def ars343bM (T : Tab343 K) (dt : K) : List (Mac K) :=
  [.expC [0] [1] 0 1 (T.γ * dt), .impC 1 2 (T.γ * dt),
   .expC [0, 1, 2] (u2c T) 2 3 (T.a32 * dt), .impC 3 4 (T.γ * dt),
   .expC [0, 1, 2, 3, 4] (u3c T) 4 5 (T.a43 * dt), .impC 5 6 (T.γ * dt),
   .expC [0, 1, 2, 3, 4, 5, 6] (u4c T) 6 0 (T.γ * dt)]

def ars443M (dt : K) : List (Mac K) :=
  [.copy 0 1, .exp 0 1 (1 / 2 * dt), .copyS 1 2, .imp 2 (1 / 2 * dt),
   .comb [1 - (11 / 18) / (1 / 2), (11 / 18) / (1 / 2) - (1 / 6) / (1 / 2), (1 / 6) / (1 / 2), 0, 0, 0, 0, 0] 7,
   .copy 7 3, .exp 2 3 (1 / 18 * dt), .copyS 3 4, .imp 4 (1 / 2 * dt),
   .comb [1 - (5 / 6) / (1 / 2), (5 / 6) / (1 / 2) - (-1 / 2) / (1 / 2), (-1 / 2) / (1 / 2),
    (-5 / 6) / (1 / 18) - (1 / 2) / (1 / 2), (1 / 2) / (1 / 2), 0, 0, -(-5 / 6) / (1 / 18), 0] 8,
   .copy 8 5, .exp 4 5 (1 / 2 * dt), .copyS 5 6, .imp 6 (1 / 2 * dt),
   .comb [1 - (1 / 4) / (1 / 2), (1 / 4) / (1 / 2) - (3 / 2) / (1 / 2), (3 / 2) / (1 / 2),
    (7 / 4) / (1 / 18) - (-3 / 2) / (1 / 2), (-3 / 2) / (1 / 2), (3 / 4) / (1 / 2) - (1 / 2) / (1 / 2),
    (1 / 2) / (1 / 2), -(7 / 4) / (1 / 18), -(3 / 4) / (1 / 2), 0] 9,
   .exp 6 9 (-7 / 4 * dt), .imp 9 (1 / 2 * dt)]

def ssp3332M (γ dt : K) : List (Mac K) :=
  [.copyS 0 2, .imp 2 (γ * dt),
   .comb [1 - (1 - 2 * γ) / γ, 0, (1 - 2 * γ) / γ, 0, 0, 0, 0, 0] 7,
   .copy 7 3, .exp 2 3 (1 * dt), .copyS 3 4, .imp 4 (γ * dt),
   .comb [1 + (1 - 2 * γ) / γ * (1 / 4) / 1 - (1 / 4) / 1 - (1 / 2 - γ) / γ, 0,
    (1 / 2 - γ) / γ - (1 - 2 * γ) / γ * (1 / 4) / 1, (1 / 4) / 1, 0, 0, 0, 0, 0] 8,
   .copy 8 5, .exp 4 5 (1 / 4 * dt), .copyS 5 6, .imp 6 (γ * dt),
   .comb [1 - (1 / 6) / γ, 0, (1 / 6) / γ, (1 / 6) / 1 - (1 / 6) / γ, (1 / 6) / γ,
    (1 / 6) / (1 / 4) - (2 / 3) / γ, (2 / 3) / γ, -(1 / 6) / 1, -(1 / 6) / (1 / 4)] 1,
   .exp 6 1 (2 / 3 * dt)]

def gark2M (γ α dt : K) : List (Mac K) :=
  [.copy 0 1, .exp 0 1 (γ * dt), .copyS 1 2, .imp 2 (γ * dt),
   .comb [1 - 1 / γ, 1 / γ - 1 / γ, 1 / γ, 0] 3,
   .comb [1 - α / γ, α / γ - (1 - γ) / γ, (1 - γ) / γ, 0, 0] 4,
   .exp 3 4 ((1 - α) * dt), .imp 4 (γ * dt)]

/-- Copy to another slot, diffuse from there, copy back. -/
def tailB (r a b w : Nat) (dt : K) : List (Cmd K) := copy2 r a ++ [.after a b w dt] ++ copy2 b 0
def tailA (r w : Nat) (dt : K) : List (Cmd K) := copy2 r 0 ++ [.after r 0 w dt]

theorem euler_eq (ex) (dt : K) : forwardEuler ex dt = expandAll ex (eulerM dt) := by
  simp only [forwardEuler, eulerM, expandAll, Mac.expand, List.flatMap_cons, List.flatMap_nil,
    List.append_assoc, List.append_nil]
theorem rk4_eq (ex) (dt : K) : rk4 ex dt = expandAll ex (rk4M dt) := by
  simp only [rk4, rk4M, expandAll, Mac.expand, List.flatMap_cons, List.flatMap_nil,
    List.append_assoc, List.append_nil]
theorem ssp3_eq (ex) (dt : K) : ssp3 ex dt = expandAll ex (ssp3M dt) := by
  simp only [ssp3, ssp3M, expandAll, Mac.expand, List.flatMap_cons, List.flatMap_nil,
    List.append_assoc, List.append_nil]
theorem kgu35_eq (ex) (dt : K) : kgu35 ex dt = expandAll ex (kgu35M dt) := by
  simp only [kgu35, kgu35M, expandAll, Mac.expand, List.flatMap_cons, List.flatMap_nil,
    List.append_assoc, List.append_nil]
theorem ssprk53_eq (ex) (dt : K) : ssprk53 ex dt = expandAll ex (ssprk53M dt) := by
  simp only [ssprk53, ssprk53M, expandAll, Mac.expand, List.flatMap_cons, List.flatMap_nil,
    List.append_assoc, List.append_nil]
theorem ars222_eq (γ δ dt : K) : ars222 γ δ dt = expandAll expHV (ars222M γ δ dt) ++ tailB 3 2 1 3 dt := by
  simp only [ars222, ars222M, expandAll, Mac.expand, tailB, List.flatMap_cons, List.flatMap_nil,
    List.append_assoc, List.append_nil]
theorem ars232_eq (γ δ dt : K) : ars232 γ δ dt = expandAll expHV (ars232M γ δ dt) ++ tailB 6 2 1 6 dt := by
  simp only [ars232, ars232M, expandAll, Mac.expand, tailB, List.flatMap_cons, List.flatMap_nil,
    List.append_assoc, List.append_nil]
theorem ars343_eq (T : Tab343 K) (dt : K) : ars343 T dt = expandAll expHV (ars343M T dt) ++ tailA 1 2 dt := by
  simp only [ars343, ars343M, expandAll, Mac.expand, tailA, List.flatMap_cons, List.flatMap_nil,
    List.append_assoc, List.append_nil]
theorem ars343b_eq (T : Tab343 K) (dt : K) :
    ars343b T dt = expandAll expH (ars343bM T dt) ++ [.afterCombine 0 1 dt] := rfl
theorem ars443_eq (dt : K) : ars443 dt = expandAll expHV (ars443M dt) ++ tailB 9 2 1 9 dt := by
  unfold ars443 ars443M expandAll
  simp only [Mac.expand, List.flatMap_cons, List.flatMap_nil, List.append_assoc, List.append_nil]
  rfl
theorem ssp3332_eq (γ dt : K) : ssp3332 γ dt = expandAll expHV (ssp3332M γ dt) ++ tailB 1 2 1 3 dt := by
  simp only [ssp3332, ssp3332M, expandAll, Mac.expand, tailB, List.flatMap_cons, List.flatMap_nil,
    List.append_assoc, List.append_nil]
theorem gark2_eq (γ α dt : K) : gark2 γ α dt = expandAll expHV (gark2M γ α dt) ++ tailB 4 2 1 4 dt := by
  simp only [gark2, gark2M, expandAll, Mac.expand, tailB, List.flatMap_cons, List.flatMap_nil,
    List.append_assoc, List.append_nil]

/-- The symbolic run of `ms` with `n + 1` slots evaluates the tendencies as in `T` and has the result of `T` in
slot `r`. -/
def Gives [DecidableEq K] (ms : List (Mac K)) (n r : Nat) (T : Tableau K) (dt : K) : Prop :=
  ∃ S, symRun ms (symInit n) = some S ∧ S.fa = rowForms dt T.EE T.EI ∧ S.ga = rowForms dt T.IE T.II ∧
    S.slots[r]? = some (some ⟨1, T.bE.map (dt * ·), T.bI.map (dt * ·)⟩)

variable [DecidableEq K]

/-- Explicit methods as tableaux without implicit stages. -/
def expTab (A : List (List K)) (b : List K) : Tableau K := ⟨A, A.map fun _ => [], [], [], b, []⟩

local macro "symeval" : tactic => `(tactic|
  simp [symRun, symStep, symInit, Sym.addF, Sym.addG, Lin.add, Lin.smul, unitL, addL, symDot, rowForms, Gives,
    expTab, pick])

theorem gives_euler (dt : K) (n : Nat) : Gives (eulerM dt) (n + 4) 4 (expTab eulerA eulerB) dt := by
  simp only [eulerM, eulerA, eulerB]; symeval

theorem gives_rk4 [CharZero K] (dt : K) : Gives (rk4M dt) 4 4 (expTab rk4A rk4B) dt := by
  simp only [rk4M, rk4A, rk4B]; symeval; field_simp; norm_num; try ring_nf

theorem gives_ssp3 [CharZero K] (dt : K) : Gives (ssp3M dt) 4 4 (expTab ssp3A ssp3B) dt := by
  simp only [ssp3M, ssp3A, ssp3B]; symeval; field_simp; norm_num; try ring_nf

theorem gives_kgu35 [CharZero K] (dt : K) : Gives (kgu35M dt) 4 4 (expTab kgu35A kgu35B) dt := by
  simp only [kgu35M, kgu35A, kgu35B]; symeval; field_simp; norm_num; try ring_nf

theorem gives_222 {γ : K} (h : γ ≠ 0) (δ dt : K) : Gives (ars222M γ δ dt) 3 3 (tab222 γ δ) dt := by
  simp only [ars222M, tab222]; symeval; field_simp; ring_nf; simp

theorem gives_232 {γ δ : K} (h : γ ≠ 0) (hδ : 1 - δ ≠ 0) (dt : K) :
    Gives (ars232M γ δ dt) 6 6 (tab232 γ δ) dt := by
  simp only [ars232M, tab232]; symeval; field_simp; ring_nf; simp

theorem gives_gark2 {γ : K} (h : γ ≠ 0) (α dt : K) : Gives (gark2M γ α dt) 4 4 (tabGark2 γ α) dt := by
  simp only [gark2M, tabGark2]; symeval; field_simp; ring_nf; simp

theorem gives_3332 [CharZero K] {γ : K} (h : γ ≠ 0) (dt : K) : Gives (ssp3332M γ dt) 8 1 (tab3332 γ) dt := by
  simp only [ssp3332M, tab3332]; symeval; field_simp; ring_nf; simp

theorem gives_443 [CharZero K] (dt : K) : Gives (ars443M dt) 9 9 tab443 dt := by
  simp only [ars443M, tab443]; symeval; field_simp; norm_num; ring_nf; simp

theorem gives_343 [CharZero K] (T : Tab343 K) (h : T.γ ≠ 0) (h2 : T.a32 ≠ 0) (h3 : T.a43 ≠ 0) (dt : K) :
    Gives (ars343M T dt) 6 1 (tableau343 T) dt := by
  simp only [ars343M, tableau343, u2c, u3c, u4c]; symeval; field_simp; ring_nf; simp

theorem gives_343b [CharZero K] (T : Tab343 K) (h : T.γ ≠ 0) (h2 : T.a32 ≠ 0) (h3 : T.a43 ≠ 0) (dt : K) :
    Gives (ars343bM T dt) 6 0 (tableau343 T) dt := by
  simp only [ars343bM, tableau343, u2c, u3c, u4c]; symeval; field_simp; ring_nf; simp

end Verif.Steps
