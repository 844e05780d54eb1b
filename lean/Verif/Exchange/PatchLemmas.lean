/-
Lockstep of packing and unpacking 4D arrays and whole patches over a linked pair of connections.
-/
import Verif.Exchange.Links

namespace Verif.Exchange

variable {α : Type}

/-- Components `c .. c+n-1` of a 4D array. -/
theorem link4 {D : Field α → Field α → Field α → Prop} {N AS BS AT BT : Nat} {cS cT : Conn}
    (H : Link D N AS BS AT BT cS cT) (varLoc : Nat → Loc) (d : Field4 α) (hA : d.sA = AS) (hB : d.sB = BS)
    (n : Nat) : ∀ (c : Nat) (e : ExBuf α), conn e = cS →
      e.ixSend + N * (d.sR * (List.range' c n).countP (d.exchanged varLoc)) ≤ e.sendRows →
      ∃ e', pack4From varLoc d n c e = .ok e' ∧
        e' = { e with send := e'.send,
                      ixSend := e.ixSend + N * (d.sR * (List.range' c n).countP (d.exchanged varLoc)) } ∧
        (∀ x, x < e.ixSend → e'.send x = e.send x) ∧
        ∀ (r : ExBuf α) (g : Field4 α), conn r = cT → g.sA = AT → g.sB = BT → g.sR = d.sR →
          g.isState = d.isState → g.loc = d.loc →
          (∀ x, x < e'.ixSend → r.recv x = e'.send x) → r.ixRecv = e.ixSend →
          r.ixRecv + N * (d.sR * (List.range' c n).countP (d.exchanged varLoc)) ≤ r.recvLen →
          r.recvLen ≤ r.recvRows →
          ∃ g', unpack4From varLoc n c (r, g) =
              .ok ({ r with ixRecv := r.ixRecv + N * (d.sR * (List.range' c n).countP (d.exchanged varLoc)) }, g') ∧
            g' = { g with val := g'.val } ∧
            (∀ b, c ≤ b → b < c + n → d.exchanged varLoc b = true → D (d.comp b) (g.comp b) (g'.comp b)) ∧
            (∀ b, ¬ (c ≤ b ∧ b < c + n ∧ d.exchanged varLoc b = true) → g'.val b = g.val b) := by
  induction n with
  | zero =>
    intro c e he _
    refine ⟨e, rfl, by simp, fun _ _ => rfl, ?_⟩
    intro r g _ _ _ _ _ _ _ _ _ _
    refine ⟨g, by simp [unpack4From], rfl, ?_, fun _ _ => rfl⟩
    intro b h1 h2; omega
  | succ n ih =>
    intro c e he hroom
    rw [List.range'_succ, List.countP_cons] at *
    by_cases hx : d.exchanged varLoc c = true
    · have ih' := ih (c + 1)
      simp only [hx, if_true] at hroom ⊢
      generalize (List.range' (c + 1) n).countP (d.exchanged varLoc) = K at *
      have hsum : N * (d.sR * (K + 1)) = N * d.sR + N * (d.sR * K) := by ring
      rw [hsum] at hroom ⊢
      obtain ⟨e1, a1, a2, a3, a4⟩ := H e (d.comp c) he hA hB
        (by show e.ixSend + N * d.sR ≤ _; omega)
      have i1 : e1.ixSend = e.ixSend + N * d.sR := by rw [a2]; rfl
      have i2 : e1.sendRows = e.sendRows := by rw [a2]
      have i3 : conn e1 = cS := by rw [a2]; exact he
      obtain ⟨e2, b1, b2, b3, b4⟩ := ih' e1 i3 (by rw [i1, i2]; omega)
      have j1 : e2.ixSend = e1.ixSend + N * (d.sR * K) := by rw [b2]
      refine ⟨e2, ?_, ?_, ?_, ?_⟩
      · simp only [pack4From, hx, if_true, a1, Res.bind, b1]
      · rw [b2, i1, a2]; simp only [ExBuf.mk.injEq, true_and, and_true]; omega
      · intro x hx'
        rw [b3 x (by omega), a3 x hx']
      · intro r g hr gA gB gR gS gL hmsg hix hlen hrows
        obtain ⟨g1, c1, c0, c2⟩ := a4 r (g.comp c) hr gA gB gR
          (fun x hx' => by rw [hmsg x (by omega), b3 x hx']) hix
          (by show r.ixRecv + N * d.sR ≤ _; omega) hrows
        have hgx : g.exchanged varLoc c = true := by
          rw [← hx]; unfold Field4.exchanged; rw [gS, gL]
        obtain ⟨g2, d1, d2, d3, d4⟩ := b4
          { r with ixRecv := r.ixRecv + N * d.sR } (g.put c g1) hr gA gB gR gS gL hmsg
          (by simp only; omega) (by simp only; omega) hrows
        refine ⟨g2, ?_, ?_, ?_, ?_⟩
        · simp only [unpack4From, hgx, if_true, c1, Res.bind]
          rw [show (d.comp c).sR = d.sR from rfl, d1]
          simp only [Res.ok.injEq, Prod.mk.injEq, ExBuf.mk.injEq, true_and, and_true]
          omega
        · rw [d2]; rfl
        · intro b hb1 hb2 hb3
          by_cases hbc : b = c
          · subst hbc
            have h1 := d4 b (by omega)
            have h2 : g2.comp b = g1 := by
              rw [d2, c0]
              simp only [Field4.comp, h1]
              simp [Field4.put, Field4.comp]
            rw [h2]; exact c2
          · have h1 := d3 b (by omega) (by omega) hb3
            have h2 : (g.put c g1).comp b = g.comp b := by
              simp [Field4.comp, Field4.put, hbc]
            rw [h2] at h1; exact h1
        · intro b hb
          have hbc : b ≠ c := by
            rintro rfl; exact hb ⟨le_refl _, by omega, hx⟩
          rw [d4 b (by intro h; exact hb ⟨by omega, by omega, h.2.2⟩)]
          simp [Field4.put, hbc]
    · simp only [hx] at hroom ⊢
      simp only [Nat.add_zero, Bool.false_eq_true, if_false] at hroom ⊢
      obtain ⟨e2, b1, b2, b3, b4⟩ := ih (c + 1) e he hroom
      refine ⟨e2, ?_, b2, b3, ?_⟩
      · simp only [pack4From, hx, b1]; rfl
      · intro r g hr gA gB gR gS gL hmsg hix hlen hrows
        have hgx : ¬ g.exchanged varLoc c = true := by
          intro h; apply hx; rw [← h]; unfold Field4.exchanged; rw [gS, gL]
        obtain ⟨g2, d1, d2, d3, d4⟩ := b4 r g hr gA gB gR gS gL hmsg hix hlen hrows
        refine ⟨g2, ?_, d2, ?_, ?_⟩
        · simp only [unpack4From, hgx]; exact d1
        · intro b hb1 hb2 hb3
          have : b ≠ c := by rintro rfl; exact hx hb3
          exact d3 b (by omega) (by omega) hb3
        · intro b hb
          apply d4
          intro h; exact hb ⟨by omega, by omega, h.2.2⟩

theorem countP_state (varLoc : Nat → Loc) (f : Field4 α) (h : f.isState = true) (n : Nat) :
    (List.range' 0 n).countP (f.exchanged varLoc) = (List.range n).countP (fun c => varLoc c == f.loc) := by
  rw [List.range_eq_range']
  apply List.countP_congr
  intro c _
  simp [Field4.exchanged, h]

theorem countP_all (varLoc : Nat → Loc) (f : Field4 α) (h : f.isState = false) (n : Nat) :
    (List.range' 0 n).countP (f.exchanged varLoc) = n := by
  rw [List.countP_eq_length.mpr]
  · simp
  · intro c _; simp [Field4.exchanged, h]

theorem get?_comp (f : Field4 α) (c : Nat) (x : Field α) : f.get? c = some x ↔ c < f.comps ∧ x = f.comp c := by
  unfold Field4.get? Field4.comp
  split
  · simp [*, eq_comm]
  · simp [*]

/-- A whole array list after one of its members was replaced by one differing only in its values. -/
theorem get?_set_ne {l : List (Field4 α)} {ix i : Nat} {g : Field4 α} (h : i ≠ ix) :
    (l.set ix g)[i]? = l[i]? := by
  rw [List.getElem?_set_ne (Ne.symm h)]

/-- A patch sent and received over linked connections. -/
theorem patch_link {D : Field α → Field α → Field α → Prop} {N : Nat} {cS cT : Conn} (sS sT : Setting)
    (H : Link D N (sS.widthA + 2 * sS.halo) (sS.widthB + 2 * sS.halo)
      (sT.widthA + 2 * sT.halo) (sT.widthB + 2 * sT.halo) cS cT)
    (hR : sT.rElements = sS.rElements) (hC : sT.components = sS.components) (hTr : sT.tracers = sS.tracers)
    (varLoc : Nat → Loc) (t : XType) (ix : Nat) (pS : Patch α) (hS : Sized sS pS) (hI : HasInstance pS t ix)
    (e : ExBuf α) (he : conn e = cS) (hsrc : e.src = pS.index)
    (hroom : e.ixSend + N * valuesPerNode sS varLoc t ≤ e.sendRows) :
    ∃ e', packPatch varLoc pS t ix e = .ok e' ∧
      e' = { e with send := e'.send, ixSend := e.ixSend + N * valuesPerNode sS varLoc t } ∧
      ∀ (r : ExBuf α) (pT : Patch α), conn r = cT → r.src = pT.index → Sized sT pT → HasInstance pT t ix →
        (∀ x, x < e'.ixSend → r.recv x = e'.send x) → r.ixRecv = e.ixSend →
        r.ixRecv + N * valuesPerNode sS varLoc t ≤ r.recvLen → r.recvLen ≤ r.recvRows →
        ∃ p', unpackPatch varLoc pT t ix r =
            .ok ({ r with ixRecv := r.ixRecv + N * valuesPerNode sS varLoc t }, p') ∧
          PatchDelivered D varLoc t ix pS pT p' := by
  have single : ∀ (f : Field α) (hf : f.sA = sS.widthA + 2 * sS.halo ∧ f.sB = sS.widthB + 2 * sS.halo)
      (hv : f.sR = valuesPerNode sS varLoc t),
      ∃ e', pack3 e f = .ok e' ∧
      e' = { e with send := e'.send, ixSend := e.ixSend + N * valuesPerNode sS varLoc t } ∧
      ∀ (r : ExBuf α) (g : Field α), conn r = cT → g.sA = sT.widthA + 2 * sT.halo →
        g.sB = sT.widthB + 2 * sT.halo → g.sR = f.sR →
        (∀ x, x < e'.ixSend → r.recv x = e'.send x) → r.ixRecv = e.ixSend →
        r.ixRecv + N * valuesPerNode sS varLoc t ≤ r.recvLen → r.recvLen ≤ r.recvRows →
        ∃ g', unpack3 r g = .ok ({ r with ixRecv := r.ixRecv + N * valuesPerNode sS varLoc t }, g') ∧ D f g g' := by
    intro f hf hv
    obtain ⟨e', h1, h2, _, h4⟩ := H e f he hf.1 hf.2 (by rw [hv]; exact hroom)
    rw [hv] at h2 h4
    refine ⟨e', h1, h2, ?_⟩
    intro r g a1 a2 a3 a4 a5 a6 a7 a8
    obtain ⟨g', b1, _, b3⟩ := h4 r g a1 a2 a3 (by rw [a4, hv]) a5 a6 a7 a8
    exact ⟨g', b1, b3⟩
  have hsrc' : ¬ e.src ≠ pS.index := by simp [hsrc]
  cases t with
  | state =>
    have hI' : ix < pS.stateNode.length := hI
    have hIr : ix < pS.stateREdge.length := by rw [hS.states]; exact hI'
    obtain ⟨n1, n2, n3, n4, n5, n6⟩ := hS.stateNode _ (List.getElem_mem hI')
    obtain ⟨r1, r2, r3, r4, r5, r6⟩ := hS.stateREdge _ (List.getElem_mem hIr)
    have hv : valuesPerNode sS varLoc .state =
        (pS.stateNode[ix]).sR * (List.range' 0 sS.components).countP ((pS.stateNode[ix]).exchanged varLoc) +
        (pS.stateREdge[ix]).sR * (List.range' 0 sS.components).countP ((pS.stateREdge[ix]).exchanged varLoc) := by
      rw [countP_state varLoc _ n1, countP_state varLoc _ r1, n2, r2, n6, r6]; rfl
    rw [hv, Nat.mul_add] at hroom ⊢
    obtain ⟨e1, a1, a2, a3, a4⟩ := link4 H varLoc (pS.stateNode[ix]) n4 n5 sS.components 0 e he (by omega)
    generalize hK : N * ((pS.stateNode[ix]).sR *
      (List.range' 0 sS.components).countP ((pS.stateNode[ix]).exchanged varLoc)) = K at *
    have i1 : e1.ixSend = e.ixSend + K := by rw [a2]
    have i2 : conn e1 = cS := by rw [a2]; exact he
    have i3 : e1.sendRows = e.sendRows := by rw [a2]
    obtain ⟨e2, b1, b2, b3, b4⟩ := link4 H varLoc (pS.stateREdge[ix]) r4 r5 sS.components 0 e1 i2
      (by rw [i1, i3]; omega)
    generalize hL : N * ((pS.stateREdge[ix]).sR *
      (List.range' 0 sS.components).countP ((pS.stateREdge[ix]).exchanged varLoc)) = L at *
    have j1 : e2.ixSend = e1.ixSend + L := by rw [b2]
    refine ⟨e2, ?_, ?_, ?_⟩
    · simp only [packPatch, if_neg hsrc', Int.toNat_natCast, List.getElem?_eq_getElem hI',
        List.getElem?_eq_getElem hIr]
      rw [if_neg (by omega)]
      simp only [pack4, n3, r3, a1, Res.bind, b1]
    · rw [b2, i1, a2]; simp only [Nat.add_assoc]
    · intro r pT hr hrsrc hT hTI hmsg hix hlen hrows
      have hTI' : ix < pT.stateNode.length := hTI
      have hTIr : ix < pT.stateREdge.length := by rw [hT.states]; exact hTI'
      obtain ⟨m1, m2, m3, m4, m5, m6⟩ := hT.stateNode _ (List.getElem_mem hTI')
      obtain ⟨q1, q2, q3, q4, q5, q6⟩ := hT.stateREdge _ (List.getElem_mem hTIr)
      obtain ⟨g1, c1, c2, c3, c4⟩ := a4 r (pT.stateNode[ix]) hr m4 m5 (by omega) (by rw [m1, n1])
        (by rw [m2, n2]) (fun x hx => by rw [hmsg x (by omega), b3 x hx]) hix (by omega) hrows
      obtain ⟨g2, d1, d2, d3, d4⟩ := b4 { r with ixRecv := r.ixRecv + K } (pT.stateREdge[ix]) hr q4 q5
        (by omega) (by rw [q1, r1]) (by rw [q2, r2]) hmsg (by simp only; omega) (by simp only; omega) hrows
      have hrs : ¬ r.src ≠ pT.index := by simp [hrsrc]
      refine ⟨{ pT with stateNode := pT.stateNode.set ix g1, stateREdge := pT.stateREdge.set ix g2 }, ?_, ?_, ?_, rfl⟩
      · simp only [unpackPatch, if_neg hrs, Int.toNat_natCast, List.getElem?_eq_getElem hTI',
          List.getElem?_eq_getElem hTIr]
        rw [if_neg (by omega)]
        simp only [unpack4, m3, q3, hC, c1, d1, Res.bind, Nat.add_assoc]
      · intro s f g hs hf hg
        cases s with
        | stateNode i c =>
          obtain ⟨_, rfl, hl⟩ := hs
          simp only [Patch.get?, List.getElem?_eq_getElem hI', List.getElem?_eq_getElem hTI', Option.bind_some,
            get?_comp] at hf hg
          obtain ⟨hf1, rfl⟩ := hf
          obtain ⟨hg1, rfl⟩ := hg
          refine ⟨g1.comp c, ?_, c3 c (by omega) (by omega) (by simp [Field4.exchanged, n1, n2, hl])⟩
          simp only [Patch.get?, List.getElem?_set_self hTI', Option.bind_some, get?_comp, and_true]
          rw [c2]; exact hg1
        | stateREdge i c =>
          obtain ⟨_, rfl, hl⟩ := hs
          simp only [Patch.get?, List.getElem?_eq_getElem hIr, List.getElem?_eq_getElem hTIr, Option.bind_some,
            get?_comp] at hf hg
          obtain ⟨hf1, rfl⟩ := hf
          obtain ⟨hg1, rfl⟩ := hg
          refine ⟨g2.comp c, ?_, d3 c (by omega) (by omega) (by simp [Field4.exchanged, r1, r2, hl])⟩
          simp only [Patch.get?, List.getElem?_set_self hTIr, Option.bind_some, get?_comp, and_true]
          rw [d2]; exact hg1
        | _ => simp [Concerned] at hs
      · intro s hs
        cases s with
        | stateNode i c =>
          simp only [Patch.get?]
          by_cases hi : i = ix
          · subst hi
            rw [List.getElem?_set_self hTI', List.getElem?_eq_getElem hTI']
            simp only [Option.bind_some]
            have hloc : varLoc c ≠ .node := fun h => hs ⟨rfl, rfl, h⟩
            have := c4 c (by simp [Field4.exchanged, n1, n2, hloc])
            rw [c2]; simp only [Field4.get?, this]
          · rw [get?_set_ne hi]
        | stateREdge i c =>
          simp only [Patch.get?]
          by_cases hi : i = ix
          · subst hi
            rw [List.getElem?_set_self hTIr, List.getElem?_eq_getElem hTIr]
            simp only [Option.bind_some]
            have hloc : varLoc c ≠ .rEdge := fun h => hs ⟨rfl, rfl, h⟩
            have := d4 c (by simp [Field4.exchanged, r1, r2, hloc])
            rw [d2]; simp only [Field4.get?, this]
          · rw [get?_set_ne hi]
        | _ => rfl
  | tracers =>
    have hI' : ix < pS.tracers.length := hI
    obtain ⟨n1, n2, n3, n4, n5, n6⟩ := hS.tracers _ (List.getElem_mem hI')
    have hv : valuesPerNode sS varLoc .tracers =
        (pS.tracers[ix]).sR * (List.range' 0 sS.tracers).countP ((pS.tracers[ix]).exchanged varLoc) := by
      rw [countP_all varLoc _ n1, n6]; rfl
    rw [hv] at hroom ⊢
    obtain ⟨e1, a1, a2, a3, a4⟩ := link4 H varLoc (pS.tracers[ix]) n4 n5 sS.tracers 0 e he (by omega)
    generalize hK : N * ((pS.tracers[ix]).sR *
      (List.range' 0 sS.tracers).countP ((pS.tracers[ix]).exchanged varLoc)) = K at *
    refine ⟨e1, ?_, a2, ?_⟩
    · simp only [packPatch, if_neg hsrc', Int.toNat_natCast, List.getElem?_eq_getElem hI']
      rw [if_neg (by omega)]
      simp only [pack4, n3, a1]
    · intro r pT hr hrsrc hT hTI hmsg hix hlen hrows
      have hTI' : ix < pT.tracers.length := hTI
      obtain ⟨m1, m2, m3, m4, m5, m6⟩ := hT.tracers _ (List.getElem_mem hTI')
      have hex : ∀ b, (pS.tracers[ix]).exchanged varLoc b = true := by
        intro b; simp [Field4.exchanged, n1]
      obtain ⟨g1, c1, c2, c3, c4⟩ := a4 r (pT.tracers[ix]) hr m4 m5 (by omega) (by rw [m1, n1])
        (by rw [m2, n2]) hmsg hix hlen hrows
      have hrs : ¬ r.src ≠ pT.index := by simp [hrsrc]
      refine ⟨{ pT with tracers := pT.tracers.set ix g1 }, ?_, ?_, ?_, rfl⟩
      · simp only [unpackPatch, if_neg hrs, Int.toNat_natCast, List.getElem?_eq_getElem hTI']
        rw [if_neg (by omega)]
        simp only [unpack4, m3, hTr, c1, Res.bind]
      · intro s f g hs hf hg
        cases s with
        | tracers i c =>
          obtain ⟨_, rfl⟩ := hs
          simp only [Patch.get?, List.getElem?_eq_getElem hI', List.getElem?_eq_getElem hTI', Option.bind_some,
            get?_comp] at hf hg
          obtain ⟨hf1, rfl⟩ := hf
          obtain ⟨hg1, rfl⟩ := hg
          refine ⟨g1.comp c, ?_, c3 c (by omega) (by omega) (hex c)⟩
          simp only [Patch.get?, List.getElem?_set_self hTI', Option.bind_some, get?_comp, and_true]
          rw [c2]; exact hg1
        | _ => simp [Concerned] at hs
      · intro s hs
        cases s with
        | tracers i c =>
          simp only [Patch.get?]
          rw [get?_set_ne (fun h => hs ⟨rfl, h⟩)]
        | _ => rfl
  | vorticity =>
    have hf := hS.fields pS.vorticity (by simp)
    obtain ⟨e1, a1, a2, a3⟩ := single pS.vorticity ⟨hf.1, hf.2.1⟩ hf.2.2
    refine ⟨e1, by simp only [packPatch, if_neg hsrc', a1], a2, ?_⟩
    intro r pT hr hrsrc hT hTI hmsg hix hlen hrows
    have hg := hT.fields pT.vorticity (by simp)
    obtain ⟨g', b1, b2⟩ := a3 r pT.vorticity hr hg.1 hg.2.1 (by omega) hmsg hix hlen hrows
    have hrs : ¬ r.src ≠ pT.index := by simp [hrsrc]
    refine ⟨{ pT with vorticity := g' }, by simp only [unpackPatch, if_neg hrs, b1, Res.bind], ?_, ?_, rfl⟩
    · intro s f g hs hf hg
      cases s <;> simp [Concerned, Patch.get?] at hs hf hg
      subst hf; subst hg
      exact ⟨g', rfl, b2⟩
    · intro s hs
      cases s <;> first | rfl | exact absurd rfl hs
  | divergence =>
    have hf := hS.fields pS.divergence (by simp)
    obtain ⟨e1, a1, a2, a3⟩ := single pS.divergence ⟨hf.1, hf.2.1⟩ hf.2.2
    refine ⟨e1, by simp only [packPatch, if_neg hsrc', a1], a2, ?_⟩
    intro r pT hr hrsrc hT hTI hmsg hix hlen hrows
    have hg := hT.fields pT.divergence (by simp)
    obtain ⟨g', b1, b2⟩ := a3 r pT.divergence hr hg.1 hg.2.1 (by omega) hmsg hix hlen hrows
    have hrs : ¬ r.src ≠ pT.index := by simp [hrsrc]
    refine ⟨{ pT with divergence := g' }, by simp only [unpackPatch, if_neg hrs, b1, Res.bind], ?_, ?_, rfl⟩
    · intro s f g hs hf hg
      cases s <;> simp [Concerned, Patch.get?] at hs hf hg
      subst hf; subst hg
      exact ⟨g', rfl, b2⟩
    · intro s hs
      cases s <;> first | rfl | exact absurd rfl hs
  | temperature =>
    have hf := hS.fields pS.temperature (by simp)
    obtain ⟨e1, a1, a2, a3⟩ := single pS.temperature ⟨hf.1, hf.2.1⟩ hf.2.2
    refine ⟨e1, by simp only [packPatch, if_neg hsrc', a1], a2, ?_⟩
    intro r pT hr hrsrc hT hTI hmsg hix hlen hrows
    have hg := hT.fields pT.temperature (by simp)
    obtain ⟨g', b1, b2⟩ := a3 r pT.temperature hr hg.1 hg.2.1 (by omega) hmsg hix hlen hrows
    have hrs : ¬ r.src ≠ pT.index := by simp [hrsrc]
    refine ⟨{ pT with temperature := g' }, by simp only [unpackPatch, if_neg hrs, b1, Res.bind], ?_, ?_, rfl⟩
    · intro s f g hs hf hg
      cases s <;> simp [Concerned, Patch.get?] at hs hf hg
      subst hf; subst hg
      exact ⟨g', rfl, b2⟩
    · intro s hs
      cases s <;> first | rfl | exact absurd rfl hs
  | richardson =>
    have hf := hS.fields pS.richardson (by simp)
    obtain ⟨e1, a1, a2, a3⟩ := single pS.richardson ⟨hf.1, hf.2.1⟩ hf.2.2
    refine ⟨e1, by simp only [packPatch, if_neg hsrc', a1], a2, ?_⟩
    intro r pT hr hrsrc hT hTI hmsg hix hlen hrows
    have hg := hT.fields pT.richardson (by simp)
    obtain ⟨g', b1, b2⟩ := a3 r pT.richardson hr hg.1 hg.2.1 (by omega) hmsg hix hlen hrows
    have hrs : ¬ r.src ≠ pT.index := by simp [hrsrc]
    refine ⟨{ pT with richardson := g' }, by simp only [unpackPatch, if_neg hrs, b1, Res.bind], ?_, ?_, rfl⟩
    · intro s f g hs hf hg
      cases s <;> simp [Concerned, Patch.get?] at hs hf hg
      subst hf; subst hg
      exact ⟨g', rfl, b2⟩
    · intro s hs
      cases s <;> first | rfl | exact absurd rfl hs
  | topographyDeriv =>
    have hf := hS.topo
    obtain ⟨e1, a1, a2, a3⟩ := single pS.topographyDeriv ⟨hf.1, hf.2.1⟩ hf.2.2
    refine ⟨e1, by simp only [packPatch, if_neg hsrc', a1], a2, ?_⟩
    intro r pT hr hrsrc hT hTI hmsg hix hlen hrows
    have hg := hT.topo
    obtain ⟨g', b1, b2⟩ := a3 r pT.topographyDeriv hr hg.1 hg.2.1 (by omega) hmsg hix hlen hrows
    have hrs : ¬ r.src ≠ pT.index := by simp [hrsrc]
    refine ⟨{ pT with topographyDeriv := g' }, by simp only [unpackPatch, if_neg hrs, b1, Res.bind], ?_, ?_, rfl⟩
    · intro s f g hs hf hg
      cases s <;> simp [Concerned, Patch.get?] at hs hf hg
      subst hf; subst hg
      exact ⟨g', rfl, b2⟩
    · intro s hs
      cases s <;> first | rfl | exact absurd rfl hs
  | other => exact absurd hI id

end Verif.Exchange
