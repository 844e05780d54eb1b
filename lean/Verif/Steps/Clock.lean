/-
Constant tendencies: every slot holds `w • u + h • fh + v • fv + i • g` for known numbers, its "clock".
-/
import Verif.Steps.Flow

namespace Verif.Steps

/-- The dynamics of constant tendencies: `fh` horizontal explicit, `fv` vertical explicit, `g` vertical implicit.
Post-processing, filtering, hyperdiffusion and the horizontal implicit call change nothing. -/
structure Constant {K V W : Type*} [Semiring K] [AddCommMonoid V] [Module K V] [AddCommMonoid W] [Module K W]
    (Dy : Dyn K V W) (fh fv g : V × W) : Prop where
  hExp : ∀ c x y, Dy.hExp c x y = y + c • fh
  vExp : ∀ c x y, Dy.vExp c x y = y + c • fv
  vImp : ∀ c x y, Dy.vImp c x y = y + c • g
  vImpExp : ∀ c x y, Dy.vImpExp c x y = y + c • g
  hImp : ∀ c x y, Dy.hImp c x y = y
  postS : ∀ x, Dy.postS x = x
  postT : ∀ x, Dy.postT x = x
  filt : ∀ x, Dy.filt x = x
  hyper : ∀ c x, Dy.hyper c x = x

/-- Weight of the initial state and lengths of time for which each tendency was applied. -/
@[ext] structure Clk (K : Type*) where
  w : K
  h : K
  v : K
  i : K

section
variable {K V W : Type*} [Field K] [DecidableEq K] [AddCommGroup V] [Module K V] [AddCommGroup W] [Module K W]

def Clk.addH (c : K) (k : Clk K) : Clk K := ⟨k.w, k.h + c, k.v, k.i⟩
def Clk.addV (c : K) (k : Clk K) : Clk K := ⟨k.w, k.h, k.v + c, k.i⟩
def Clk.addI (c : K) (k : Clk K) : Clk K := ⟨k.w, k.h, k.v, k.i + c⟩
/-- `c • k + l`. -/
def Clk.axpy (c : K) (k l : Clk K) : Clk K := ⟨c * k.w + l.w, c * k.h + l.h, c * k.v + l.v, c * k.i + l.i⟩

/-- Clock of a combination; unknown slots may have coefficient zero. -/
def clkDot : List K → List (Option (Clk K)) → Option (Clk K)
  | [], _ => some ⟨0, 0, 0, 0⟩
  | _, [] => some ⟨0, 0, 0, 0⟩
  | c :: cs, some k :: ks => (clkDot cs ks).map (k.axpy c)
  | c :: cs, none :: ks => if c = 0 then clkDot cs ks else none

/-- Clock of a slot. -/
def clkAt (l : List (Option (Clk K))) (i : Nat) : Option (Clk K) := (l[i]?).getD none

/-- The clocks after a call, for the state (`tr = false`) or the tracers (`tr = true`). -/
def clk (tr : Bool) : Cmd K → List (Option (Clk K)) → List (Option (Clk K))
  | .copy s t .state, l => if tr then l else l.set t (clkAt l s)
  | .copy s t .tracers, l => if tr then l.set t (clkAt l s) else l
  | .combine c t .state, l => if tr then l else l.set t (clkDot c l)
  | .combine c t .tracers, l => if tr then l.set t (clkDot c l) else l
  | .hExp _ u c, l => l.set u ((clkAt l u).map (Clk.addH c))
  | .vExp _ u c, l => l.set u ((clkAt l u).map (Clk.addV c))
  | .vImp _ u c, l => l.set u ((clkAt l u).map (Clk.addI c))
  | .vImpExp _ u c, l => l.set u ((clkAt l u).map (Clk.addI c))
  | .hImp _ _ _, l => l
  | .post _ _, l => l
  | .filter _, l => l
  | .after a u w _, l => (l.set u (clkAt l a)).set w none
  | .expCombine is cs _ u c, l => l.set u ((clkDot cs (is.map (clkAt l))).map (Clk.addH c))
  | .impCombine is cs _ u c, l => l.set u ((clkDot cs (is.map (clkAt l))).map (Clk.addI c))
  | .afterCombine _ w _, l => l.set w none

def clkRun (tr : Bool) (p : List (Cmd K)) (l : List (Option (Clk K))) : List (Option (Clk K)) :=
  p.foldl (fun l c => clk tr c l) l

theorem clkRun_append (tr : Bool) (p q : List (Cmd K)) (l : List (Option (Clk K))) :
    clkRun tr (p ++ q) l = clkRun tr q (clkRun tr p l) := by simp [clkRun]

end

section Sound
variable {K D : Type*} [Field K] [DecidableEq K] [AddCommGroup D] [Module K D]

/-- The value of a clock. -/
def Clk.val (k : Clk K) (u fh fv g : D) : D := k.w • u + (k.h • fh + (k.v • fv + k.i • g))

/-- The slots `xs` show the clocks `l`. -/
def RepC (u fh fv g : D) (l : List (Option (Clk K))) (xs : List D) : Prop :=
  xs.length = l.length ∧ ∀ i k, clkAt l i = some k → xs[i]? = some (k.val u fh fv g)

variable {u fh fv g : D}

omit [DecidableEq K] in
theorem repC_set {l : List (Option (Clk K))} {xs : List D} (h : RepC u fh fv g l xs) (t : Nat) (o : Option (Clk K))
    (x : D) (hx : ∀ k, o = some k → x = k.val u fh fv g) : RepC u fh fv g (l.set t o) (xs.set t x) := by
  refine ⟨by simpa using h.1, fun i k hi => ?_⟩
  unfold clkAt at hi
  by_cases hit : t = i
  · subst hit
    by_cases hl : t < l.length
    · rw [List.getElem?_set_self hl, Option.getD_some] at hi
      rw [List.getElem?_set_self (by rw [h.1]; exact hl), hx k hi]
    · rw [List.getElem?_eq_none (by simp; omega)] at hi; simp at hi
  · rw [List.getElem?_set_ne hit] at hi ⊢
    exact h.2 i k hi

omit [DecidableEq K] in
theorem val_axpy (c : K) (k l : Clk K) :
    (k.axpy c l).val u fh fv g = c • k.val u fh fv g + l.val u fh fv g := by
  simp only [Clk.val, Clk.axpy, add_smul, mul_smul, smul_add]; abel

theorem clkDot_sound (cs : List K) (l : List (Option (Clk K))) (xs : List D) (h : RepC u fh fv g l xs) (k : Clk K)
    (hk : clkDot cs l = some k) : dot cs xs = k.val u fh fv g := by
  induction cs generalizing l xs k with
  | nil => simp only [clkDot, Option.some.injEq] at hk; subst hk; simp [Clk.val]
  | cons c cs ih =>
    cases l with
    | nil =>
      simp only [clkDot, Option.some.injEq] at hk
      subst hk
      have : xs = [] := List.length_eq_zero_iff.mp h.1
      subst this
      simp [Clk.val]
    | cons o l =>
      cases xs with
      | nil => simpa using h.1
      | cons x xs =>
        have ht : RepC u fh fv g l xs := ⟨by simpa using h.1, fun i w hi => by
          have := h.2 (i + 1) w (by simpa [clkAt] using hi)
          simpa using this⟩
        cases o with
        | none =>
          simp only [clkDot] at hk
          split_ifs at hk with hc
          rw [dot_cons, hc, zero_smul, zero_add]
          exact ih l xs ht k hk
        | some v =>
          simp only [clkDot, Option.map_eq_some_iff] at hk
          obtain ⟨b, hb, rfl⟩ := hk
          have hy := h.2 0 v (by simp [clkAt])
          simp only [List.getElem?_cons_zero, Option.some.injEq] at hy
          rw [dot_cons, hy, ih l xs ht b hb, val_axpy]

omit [DecidableEq K] in
theorem addH_val (c : K) (k : Clk K) : (k.addH c).val u fh fv g = k.val u fh fv g + c • fh := by
  simp only [Clk.val, Clk.addH, add_smul]; abel
omit [DecidableEq K] in
theorem addV_val (c : K) (k : Clk K) : (k.addV c).val u fh fv g = k.val u fh fv g + c • fv := by
  simp only [Clk.val, Clk.addV, add_smul]; abel
omit [DecidableEq K] in
theorem addI_val (c : K) (k : Clk K) : (k.addI c).val u fh fv g = k.val u fh fv g + c • g := by
  simp only [Clk.val, Clk.addI, add_smul]; abel

omit [DecidableEq K] in
theorem repC_same {l : List (Option (Clk K))} {xs : List D} (h : RepC u fh fv g l xs) {t : Nat} {x : D}
    (hx : xs[t]? = some x) : RepC u fh fv g l (xs.set t x) := by
  obtain ⟨h1, rfl⟩ := List.getElem?_eq_some_iff.mp hx
  rwa [List.set_getElem_self h1]

/-- Copy. -/
theorem repC_copy {l : List (Option (Clk K))} {xs ys : List D} (h : RepC u fh fv g l xs) {s t : Nat}
    (e : copyData (s : Int) (t : Int) xs = some ys) : RepC u fh fv g (l.set t (clkAt l s)) ys := by
  unfold copyData at e
  split_ifs at e
  split at e <;> [skip; exact absurd e (by simp)]
  rename_i x y hx hy
  simp only [Option.some.injEq, Int.toNat_natCast] at e hx
  subst e
  exact repC_set h t _ _ fun k hk => by
    have := h.2 s k hk
    rw [hx, Option.some.injEq] at this
    exact this

/-- Combination. -/
theorem repC_comb {l : List (Option (Clk K))} {xs : List D} (h : RepC u fh fv g l xs) (c : List K) {t : Nat} :
    RepC u fh fv g (l.set t (clkDot c l)) (xs.set t (dot c xs)) :=
  repC_set h t _ _ fun k hk => clkDot_sound c l xs h k hk

omit [DecidableEq K] in
/-- An addition to one slot. -/
theorem repC_add {l : List (Option (Clk K))} {xs : List D} (h : RepC u fh fv g l xs) {t : Nat} {y z : D}
    {f : Clk K → Clk K} (hy : xs[t]? = some y) (hf : ∀ k : Clk K, (f k).val u fh fv g = k.val u fh fv g + z) :
    RepC u fh fv g (l.set t ((clkAt l t).map f)) (xs.set t (y + z)) :=
  repC_set h t _ _ fun k hk => by
    simp only [Option.map_eq_some_iff] at hk
    obtain ⟨k', hk', rfl⟩ := hk
    have := h.2 t k' hk'
    rw [hy, Option.some.injEq] at this
    rw [hf, this]

omit [DecidableEq K] in
theorem repC_pick {l : List (Option (Clk K))} {xs : List D} (h : RepC u fh fv g l xs) (is : List Nat)
    (hi : ∀ i ∈ is, i < xs.length) : RepC u fh fv g (is.map (clkAt l)) (is.filterMap fun i => xs[i]?) := by
  induction is with
  | nil => exact ⟨rfl, fun i w hw => by simp [clkAt] at hw⟩
  | cons j js ih =>
    have hj : j < xs.length := hi j (by simp)
    have := ih fun i hi' => hi i (by simp [hi'])
    simp only [List.filterMap_cons, List.getElem?_eq_getElem hj]
    refine ⟨by simpa using this.1, fun i w hw => ?_⟩
    cases i with
    | zero =>
      have hx := h.2 j w (by simpa [clkAt] using hw)
      rw [List.getElem?_eq_getElem hj] at hx
      simpa using hx
    | succ i => simpa using this.2 i w (by simpa [clkAt] using hw)

end Sound

section Run
variable {K V W : Type*} [Field K] [DecidableEq K] [AddCommGroup V] [Module K V] [AddCommGroup W] [Module K W]
  {Dy : Dyn K V W} {u fh fv g : V × W}

/-- Clocks of state and tracers. -/
def RepD (u fh fv g : V × W) (ls lt : List (Option (Clk K))) (d : Data V W) : Prop :=
  RepC u.1 fh.1 fv.1 g.1 ls d.st ∧ RepC u.2 fh.2 fv.2 g.2 lt d.tr

omit [DecidableEq K] in
theorem get_parts {d : Data V W} {i : Nat} {x : V × W} (h : d.get i = some x) : d.st[i]? = some x.1 ∧ d.tr[i]? = some x.2 := by
  unfold Data.get at h
  split at h <;> [skip; exact absurd h (by simp)]
  rename_i v w hv hw
  simp only [Option.some.injEq] at h
  subst h
  exact ⟨hv, hw⟩

theorem clk_sound (hC : Constant Dy fh fv g) {n : Nat} {c : Cmd K} (hc : okCmd n c = true) {d e : Data V W}
    (hn : HasSlots n d) {ls lt : List (Option (Clk K))} (h : RepD u fh fv g ls lt d)
    (he : exec (modOps K) (modOps K) Dy c d = some e) : RepD u fh fv g (clk false c ls) (clk true c lt) e := by
  have dynR : ∀ {f : V × W → V × W → V × W} {a t : Nat} {z : V × W} {k : Clk K → Clk K},
      (∀ x y, f x y = y + z) → dynCall f a t d = some e →
      (∀ q : Clk K, (k q).val u.1 fh.1 fv.1 g.1 = q.val u.1 fh.1 fv.1 g.1 + z.1) →
      (∀ q : Clk K, (k q).val u.2 fh.2 fv.2 g.2 = q.val u.2 fh.2 fv.2 g.2 + z.2) →
      RepD u fh fv g (ls.set t ((clkAt ls t).map k)) (lt.set t ((clkAt lt t).map k)) e := by
    intro f a t z k hf hd k1 k2
    unfold dynCall at hd
    split at hd <;> [skip; exact absurd hd (by simp)]
    rename_i x y hx hy
    simp only [Option.some.injEq, hf] at hd
    subst hd
    obtain ⟨h1, h2⟩ := get_parts hy
    exact ⟨repC_add h.1 h1 k1, repC_add h.2 h2 k2⟩
  have combR : ∀ {f : V × W → V × W → V × W} {is : List Nat} {cs : List K} {a t : Nat} {z : V × W} {k : Clk K → Clk K},
      (∀ x y, f x y = y + z) → is ≠ [] → is.length = cs.length → (∀ i ∈ is, i < n) →
      combineCall (modOps K) (modOps K) f is cs a t d = some e →
      (∀ q : Clk K, (k q).val u.1 fh.1 fv.1 g.1 = q.val u.1 fh.1 fv.1 g.1 + z.1) →
      (∀ q : Clk K, (k q).val u.2 fh.2 fv.2 g.2 = q.val u.2 fh.2 fv.2 g.2 + z.2) →
      RepD u fh fv g (ls.set t ((clkDot cs (is.map (clkAt ls))).map k))
        (lt.set t ((clkDot cs (is.map (clkAt lt))).map k)) e := by
    intro f is cs a t z k hf hne hl hi hd k1 k2
    unfold combineCall at hd
    split_ifs at hd with h1 h2
    rotate_left
    · split at hd <;> exact absurd hd (by simp)
    rw [combineInst_dot _ _ _ hne hl (by rw [hn.1]; exact hi), combineInst_dot _ _ _ hne hl (by rw [hn.2]; exact hi)] at hd
    split at hd <;> [skip; exact absurd hd (by simp)]
    rename_i v w x hv hw hx
    simp only [Option.some.injEq, hf] at hd hv hw
    subst hd
    constructor
    · refine repC_set h.1 t _ _ fun q hq => ?_
      simp only [Option.map_eq_some_iff] at hq
      obtain ⟨q', hq', rfl⟩ := hq
      rw [k1, ← clkDot_sound _ _ _ (repC_pick h.1 is (by rw [hn.1]; exact hi)) _ hq', hv]
      rfl
    · refine repC_set h.2 t _ _ fun q hq => ?_
      simp only [Option.map_eq_some_iff] at hq
      obtain ⟨q', hq', rfl⟩ := hq
      rw [k2, ← clkDot_sound _ _ _ (repC_pick h.2 is (by rw [hn.2]; exact hi)) _ hq', hw]
      rfl
  cases c with
  | copy s t f =>
    cases f
    · simp only [exec, Option.map_eq_some_iff] at he
      obtain ⟨x, hx, rfl⟩ := he
      exact ⟨by simpa [clk] using repC_copy h.1 hx, by simpa [clk] using h.2⟩
    · simp only [exec, Option.map_eq_some_iff] at he
      obtain ⟨x, hx, rfl⟩ := he
      exact ⟨by simpa [clk] using h.1, by simpa [clk] using repC_copy h.2 hx⟩
  | combine c t f =>
    simp only [okCmd, Bool.and_eq_true, decide_eq_true_eq] at hc
    cases f
    · simp only [exec, linearCombine_dot c t d.st hc.1 (by rw [hn.1]; exact hc.2), Option.map_some,
        Option.some.injEq] at he
      subst he
      exact ⟨by simpa [clk] using repC_comb h.1 c, by simpa [clk] using h.2⟩
    · simp only [exec, linearCombine_dot c t d.tr hc.1 (by rw [hn.2]; exact hc.2), Option.map_some,
        Option.some.injEq] at he
      subst he
      exact ⟨by simpa [clk] using h.1, by simpa [clk] using repC_comb h.2 c⟩
  | hExp a t c =>
    simp only [exec] at he
    split_ifs at he
    exact dynR (hC.hExp c) he (addH_val c) (addH_val c)
  | vExp a t c => exact dynR (hC.vExp c) he (addV_val c) (addV_val c)
  | vImp a t c => exact dynR (hC.vImp c) he (addI_val c) (addI_val c)
  | vImpExp a t c => exact dynR (hC.vImpExp c) he (addI_val c) (addI_val c)
  | hImp a t c =>
    simp only [exec] at he
    unfold dynCall at he
    split at he <;> [skip; exact absurd he (by simp)]
    rename_i x y hx hy
    simp only [Option.some.injEq, hC.hImp] at he
    subst he
    obtain ⟨h1, h2⟩ := get_parts hy
    exact ⟨repC_same h.1 h1, repC_same h.2 h2⟩
  | post t f =>
    cases f
    · simp only [exec, Option.map_eq_some_iff, hC.postS] at he
      obtain ⟨x, hx, rfl⟩ := he
      exact ⟨repC_same h.1 hx, h.2⟩
    · simp only [exec, Option.map_eq_some_iff, hC.postT] at he
      obtain ⟨x, hx, rfl⟩ := he
      exact ⟨h.1, repC_same h.2 hx⟩
  | filter t =>
    simp only [exec, Option.map_eq_some_iff, hC.filt] at he
    obtain ⟨x, hx, rfl⟩ := he
    exact ⟨h.1, repC_same h.2 hx⟩
  | after a t w c =>
    simp only [exec] at he
    split_ifs at he
    split at he <;> [skip; exact absurd he (by simp)]
    rename_i x y z hx hy hz
    simp only [Option.some.injEq, hC.hyper] at he
    subst he
    obtain ⟨h1, h2⟩ := get_parts hx
    constructor
    · refine repC_set (repC_set h.1 t _ _ fun k hk => ?_) w none _ (by simp)
      have := h.1.2 a k hk
      rwa [h1, Option.some.injEq] at this
    · refine repC_set (repC_set h.2 t _ _ fun k hk => ?_) w none _ (by simp)
      have := h.2.2 a k hk
      rwa [h2, Option.some.injEq] at this
  | expCombine is cs a t c =>
    simp only [okCmd, Bool.and_eq_true, decide_eq_true_eq, bne_iff_ne, ne_eq, beq_iff_eq, Bool.not_eq_true',
      List.contains_eq_mem, decide_eq_false_iff_not, List.all_eq_true] at hc
    exact combR (hC.hExp c) hc.1.1.1.1.2 hc.1.1.1.1.1 hc.2 he (addH_val c) (addH_val c)
  | impCombine is cs a t c =>
    simp only [okCmd, Bool.and_eq_true, decide_eq_true_eq, bne_iff_ne, ne_eq, beq_iff_eq, Bool.not_eq_true',
      List.contains_eq_mem, decide_eq_false_iff_not, List.all_eq_true] at hc
    exact combR (hC.vImp c) hc.1.1.1.1.2 hc.1.1.1.1.1 hc.2 he (addI_val c) (addI_val c)
  | afterCombine t w c =>
    simp only [exec] at he
    split_ifs at he
    split at he <;> [skip; exact absurd he (by simp)]
    rename_i x z hx hz
    simp only [Option.some.injEq, hC.hyper] at he
    subst he
    obtain ⟨h1, h2⟩ := get_parts hx
    exact ⟨repC_set (repC_same h.1 h1) w none _ (by simp), repC_set (repC_same h.2 h2) w none _ (by simp)⟩

theorem clkRun_sound (hC : Constant Dy fh fv g) {n : Nat} {p : List (Cmd K)} (hp : p.all (okCmd n) = true)
    {d : Data V W} (hn : HasSlots n d) {ls lt : List (Option (Clk K))} (h : RepD u fh fv g ls lt d) :
    ∃ e, run (modOps K) (modOps K) Dy p d = some e ∧ HasSlots n e ∧
      RepD u fh fv g (clkRun false p ls) (clkRun true p lt) e := by
  induction p generalizing d ls lt with
  | nil => exact ⟨d, rfl, hn, h⟩
  | cons c p ih =>
    rw [List.all_cons, Bool.and_eq_true] at hp
    obtain ⟨d1, e1, h1⟩ := exec_ok (modOps K) (modOps K) Dy hp.1 hn
    obtain ⟨e, e2, h2, h3⟩ := ih hp.2 h1 (clk_sound hC hp.1 hn h e1)
    exact ⟨e, by simp only [run, e1, Option.bind_some, e2], h2, h3⟩

/-- Clocks at the start of a step: slot 0 holds the state, nothing is known of the other `n` slots. -/
def clkInit (n : Nat) : List (Option (Clk K)) := some ⟨1, 0, 0, 0⟩ :: List.replicate n none

omit [DecidableEq K] in
theorem repC_init {D : Type*} [AddCommGroup D] [Module K D] {u fh fv g : D} {n : Nat} {xs : List D}
    (h0 : xs[0]? = some u) (hx : xs.length = n + 1) : RepC u fh fv g (clkInit (K := K) n) xs := by
  refine ⟨by simp [clkInit, hx], fun i k hi => ?_⟩
  cases i with
  | zero =>
    simp only [clkAt, clkInit, List.getElem?_cons_zero, Option.getD_some, Option.some.injEq] at hi
    subst hi
    simpa [Clk.val] using h0
  | succ i =>
    simp only [clkAt, clkInit, List.getElem?_cons_succ, List.getElem?_replicate] at hi
    split_ifs at hi <;> simp at hi

/-- A step of constant tendencies from any scratch contents, in terms of clocks. -/
theorem clk_step (hC : Constant Dy fh fv g) {n : Nat} {p : List (Cmd K)} (hp : p.all (okCmd (n + 1)) = true)
    {d : Data V W} (hd : Current (n + 1) d u) :
    ∃ e, run (modOps K) (modOps K) Dy p d = some e ∧ HasSlots (n + 1) e ∧
      RepD u fh fv g (clkRun false p (clkInit n)) (clkRun true p (clkInit n)) e := by
  obtain ⟨h1, h2⟩ := get_parts hd.2.2
  exact clkRun_sound hC hp ⟨hd.1, hd.2.1⟩ ⟨repC_init h1 hd.1, repC_init h2 hd.2.1⟩

end Run

end Verif.Steps
