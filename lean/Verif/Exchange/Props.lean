/-
C19, C20, C21, C66: halo exchange.
-/
import Verif.Exchange.PatchLemmas

namespace Verif.Exchange

variable {α : Type}

theorem countP_add_le (varLoc : Nat → Loc) (l : List Nat) :
    l.countP (fun c => varLoc c == .node) + l.countP (fun c => varLoc c == .rEdge) = l.length := by
  induction l with
  | nil => rfl
  | cons c l ih =>
    rw [List.countP_cons, List.countP_cons, List.length_cons, ← ih]
    cases varLoc c <;> simp <;> omega

/-- What is exchanged per boundary node fits the reserved levels times components. -/
theorem values_le (s : Setting) (hn : NonTrivial s) (varLoc : Nat → Loc) (t : XType) :
    valuesPerNode s varLoc t ≤
      (s.rElements + 1) * (if s.components > s.tracers then s.components else s.tracers) := by
  obtain ⟨h1, h2⟩ := hn
  set m := (if s.components > s.tracers then s.components else s.tracers) with hm
  have hmc : s.components ≤ m := by rw [hm]; split <;> omega
  have hmt : s.tracers ≤ m := by rw [hm]; split <;> omega
  have hR : s.rElements ≤ (s.rElements + 1) * m := by
    calc s.rElements ≤ (s.rElements + 1) * 1 := by omega
      _ ≤ _ := Nat.mul_le_mul_left _ (by omega)
  cases t with
  | state =>
    have := countP_add_le varLoc (List.range s.components)
    rw [List.length_range] at this
    simp only [valuesPerNode]
    calc _ ≤ (s.rElements + 1) * (List.range s.components).countP (fun c => varLoc c == .node)
          + (s.rElements + 1) * (List.range s.components).countP (fun c => varLoc c == .rEdge) := by
          apply Nat.add_le_add_right; exact Nat.mul_le_mul_right _ (by omega)
      _ = (s.rElements + 1) * s.components := by rw [← Nat.mul_add, this]
      _ ≤ _ := Nat.mul_le_mul_left _ hmc
  | tracers =>
    simp only [valuesPerNode]
    exact Nat.mul_le_mul (by omega) hmt
  | topographyDeriv =>
    simp only [valuesPerNode]
    calc 2 ≤ (s.rElements + 1) * 1 := by omega
      _ ≤ _ := Nat.mul_le_mul_left _ (by omega)
  | other => simp [valuesPerNode]
  | _ => exact hR

/-- Both connections registered and linked: the exchange completes. -/
theorem exchange_core {D : Field α → Field α → Field α → Prop} {N B : Nat} (sS sT : Setting)
    (same : SameRun sS sT) (hn : NonTrivial sS) (cS cT : Conn) (oppS oppT : Dir)
    (hcS : cS.halo = sS.halo) (hcT : cT.halo = sT.halo)
    (H : Link D N (sS.widthA + 2 * sS.halo) (sS.widthB + 2 * sS.halo)
      (sT.widthA + 2 * sT.halo) (sT.widthB + 2 * sT.halo) cS cT)
    (hN : N = B * sS.halo)
    (hbS : (if cS.dir.isEdge then (cS.second - cS.first).toNat else sS.halo) = B)
    (hbT : (if cT.dir.isEdge then (cT.second - cT.first).toNat else sT.halo) = B)
    (heS : ¬ (cS.dir.isEdge = true ∧ cS.second < cS.first)) (heT : ¬ (cT.dir.isEdge = true ∧ cT.second < cT.first))
    (hkS : ¬ cornerTooClose sS cS.dir cS.first cS.second B) (hkT : ¬ cornerTooClose sT cT.dir cT.first cT.second B)
    (varLoc : Nat → Loc) (junkS junkT : Nat → α) (t : XType) (ix : Nat) (pS pT : Patch α)
    (hS : Sized sS pS) (hT : Sized sT pT) (hIS : HasInstance pS t ix) (hIT : HasInstance pT t ix) :
    ∃ eS eT p', exchangePair varLoc junkS junkT sS pS cS.dir oppS cS.rev cS.first cS.second
        sT pT cT.dir oppT cT.rev cT.first cT.second t ix = .ok (eS, eT, p') ∧
      PatchDelivered D varLoc t ix pS pT p' ∧
      eS.ixSend = 2 + N * valuesPerNode sS varLoc t ∧ eT.ixRecv = eS.ixSend ∧
      messageSize eS = messageSize eT ∧ eS.ixSend * 8 ≤ messageSize eS := by
  obtain ⟨s1, s2, s3, s4⟩ := same
  set m := (if sS.components > sS.tracers then sS.components else sS.tracers) with hm
  have hv : valuesPerNode sS varLoc t ≤ (sS.rElements + 1) * m := values_le sS hn varLoc t
  have hcap : N * valuesPerNode sS varLoc t ≤ B * (sS.rElements + 1) * sS.halo * m := by
    calc N * valuesPerNode sS varLoc t ≤ N * ((sS.rElements + 1) * m) := Nat.mul_le_mul_left _ hv
      _ = _ := by rw [hN]; ring
  let bS : ExBuf α := {
    src := pS.index, tgt := pT.index, dir := cS.dir, opp := oppS, halo := sS.halo, comps := m,
    maxR := sS.rElements + 1, boundary := B, first := cS.first, second := cS.second, rev := cS.rev,
    sendHdr := ⟨-1, -1, .middle⟩,
    sendRows := 0, send := junkS, recvRows := 0, recvLen := 0, recv := junkS, ixSend := 0, ixRecv := 0 }
  let bT : ExBuf α := {
    src := pT.index, tgt := pS.index, dir := cT.dir, opp := oppT, halo := sT.halo, comps := m,
    maxR := sT.rElements + 1, boundary := B, first := cT.first, second := cT.second, rev := cT.rev,
    sendHdr := ⟨-1, -1, .middle⟩,
    sendRows := 0, send := junkT, recvRows := 0, recvLen := 0, recv := junkT, ixSend := 0, ixRecv := 0 }
  have g1 : register sS junkS pS.index pT.index cS.dir oppS cS.rev cS.first cS.second = .ok bS := by
    unfold register; rw [if_neg heS]; simp only [hbS]; rw [if_neg hkS]
  have g2 : register sT junkT pT.index pS.index cT.dir oppT cT.rev cT.first cT.second = .ok bT := by
    unfold register; rw [if_neg heT]; simp only [hbT]; rw [if_neg hkT]
    simp only [s2, s3, ← hm]; rfl
  set W := B * (sS.rElements + 1) * sS.halo * m with hW
  have m1 : messageSize bS = W * 8 + 16 := rfl
  have m2 : messageSize bT = W * 8 + 16 := by
    show B * (sT.rElements + 1) * sT.halo * m * 8 + 16 = _
    rw [s1, s4]
  have d1 : (W * 8 + 16) / 8 = W + 2 := by omega
  let eS0 : ExBuf α := { bS with sendRows := W + 2, recvRows := W * 8 + 16, recvLen := W + 2,
                                 sendHdr := ⟨pS.index, pT.index, oppS⟩, ixSend := 2, ixRecv := 2 }
  let eT0 : ExBuf α := { bT with sendRows := W + 2, recvRows := W * 8 + 16, recvLen := W + 2,
                                 sendHdr := ⟨pT.index, pS.index, oppT⟩, ixSend := 2, ixRecv := 2 }
  have r1 : reset (attach bS) = .ok eS0 := by
    unfold reset attach
    simp only [m1, doubleBytes, headerBytes, d1]
    rw [if_neg (by omega)]; rfl
  have r2 : reset (attach bT) = .ok eT0 := by
    unfold reset attach
    simp only [m2, doubleBytes, headerBytes, d1]
    rw [if_neg (by omega)]; rfl
  have cE : conn eS0 = cS := by
    show (⟨cS.dir, cS.first, cS.second, sS.halo, cS.rev⟩ : Conn) = cS
    rw [← hcS]
  obtain ⟨e', p1, p2, p3⟩ := patch_link sS sT H s4 s2 s3 varLoc t ix pS hS hIS eS0 cE rfl
    (by show 2 + _ ≤ W + 2; omega)
  have cR : conn (deliver e' eT0) = cT := by
    show (⟨cT.dir, cT.first, cT.second, sT.halo, cT.rev⟩ : Conn) = cT
    rw [← hcT]
  obtain ⟨p', u1, u2⟩ := p3 (deliver e' eT0) pT cR rfl hT hIT (fun _ _ => rfl) rfl
    (by show 2 + _ ≤ W + 2; omega) (by show W + 2 ≤ W * 8 + 16; omega)
  refine ⟨e', { deliver e' eT0 with ixRecv := (deliver e' eT0).ixRecv + N * valuesPerNode sS varLoc t }, p', ?_, u2,
    ?_, ?_, ?_, ?_⟩
  · unfold exchangePair
    simp only [g1, g2, Res.bind, r1, r2, p1, u1]
  · rw [p2]
  · rw [p2]; rfl
  · have : messageSize e' = messageSize bS := by rw [p2]; rfl
    rw [this, m1]
    show _ = messageSize bT
    rw [m2]
  · have : messageSize e' = messageSize bS := by rw [p2]; rfl
    rw [this, m1]
    have : e'.ixSend = 2 + N * valuesPerNode sS varLoc t := by rw [p2]
    omega

theorem isEdge_of_edge {d : Dir} (h : d.Edge) : d.isEdge = true := by
  rcases h with h | h | h | h <;> rw [h] <;> rfl

theorem isEdge_of_corner {d : Dir} (h : d.Corner) : d.isEdge = false := by
  rcases h with h | h | h | h <;> rw [h] <;> rfl

theorem edge_not_close {s : Setting} {d : Dir} (h : d.Edge) (a b n : Int) : ¬ cornerTooClose s d a b n := by
  rcases h with h | h | h | h <;> rw [h] <;> exact id

theorem fits_le {s : Setting} {c : Conn} (h : c.dir.Edge) (hF : Fits s c) : c.first ≤ c.second := by
  rcases h with h | h | h | h <;> simp only [Fits, h] at hF <;> exact hF.2.1

theorem edge_exchange (sS sT : Setting) (same : SameRun sS sT) (hn : NonTrivial sS) (cS cT : Conn)
    (oppS oppT : Dir) (hS : cS.dir.Edge) (hT : cT.dir.Edge) (hcS : cS.halo = sS.halo) (hcT : cT.halo = sT.halo)
    (hFS : Fits sS cS) (hFT : Fits sT cT) (hl : cT.len = cS.len)
    (varLoc : Nat → Loc) (junkS junkT : Nat → α) (t : XType) (ix : Nat) (pS pT : Patch α)
    (hpS : Sized sS pS) (hpT : Sized sT pT) (hIS : HasInstance pS t ix) (hIT : HasInstance pT t ix) :
    ∃ eS eT p', exchangePair varLoc junkS junkT sS pS cS.dir oppS cS.rev cS.first cS.second
        sT pT cT.dir oppT cT.rev cT.first cT.second t ix = .ok (eS, eT, p') ∧
      PatchDelivered (EdgeDelivered cS cT) varLoc t ix pS pT p' ∧
      eS.ixSend = 2 + sS.halo * cS.len * valuesPerNode sS varLoc t ∧ eT.ixRecv = eS.ixSend ∧
      messageSize eS = messageSize eT ∧ eS.ixSend * 8 ≤ messageSize eS := by
  refine exchange_core (B := cS.len) sS sT same hn cS cT oppS oppT hcS hcT
    (edge_link sS sT cS cT hS hT hcS hcT same.halo hFS hFT hl) (Nat.mul_comm _ _) ?_ ?_ ?_ ?_
    (edge_not_close hS _ _ _) (edge_not_close hT _ _ _) varLoc junkS junkT t ix pS pT hpS hpT hIS hIT
  · rw [isEdge_of_edge hS]; rfl
  · rw [isEdge_of_edge hT, ← hl]; rfl
  · have := fits_le hS hFS; omega
  · have := fits_le hT hFT; omega

theorem corner_exchange (sS sT : Setting) (same : SameRun sS sT) (hn : NonTrivial sS) (cS cT : Conn)
    (oppS oppT : Dir) (hS : cS.dir.Corner) (hT : cT.dir.Corner) (hcS : cS.halo = sS.halo)
    (hcT : cT.halo = sT.halo) (hFS : Fits sS cS) (hFT : Fits sT cT)
    (hkS : ¬ cornerTooClose sS cS.dir cS.first cS.second sS.halo)
    (hkT : ¬ cornerTooClose sT cT.dir cT.first cT.second sT.halo)
    (varLoc : Nat → Loc) (junkS junkT : Nat → α) (t : XType) (ix : Nat) (pS pT : Patch α)
    (hpS : Sized sS pS) (hpT : Sized sT pT) (hIS : HasInstance pS t ix) (hIT : HasInstance pT t ix) :
    ∃ eS eT p', exchangePair varLoc junkS junkT sS pS cS.dir oppS cS.rev cS.first cS.second
        sT pT cT.dir oppT cT.rev cT.first cT.second t ix = .ok (eS, eT, p') ∧
      PatchDelivered (CornerDelivered cS cT) varLoc t ix pS pT p' ∧
      eS.ixSend = 2 + sS.halo * sS.halo * valuesPerNode sS varLoc t ∧ eT.ixRecv = eS.ixSend ∧
      messageSize eS = messageSize eT ∧ eS.ixSend * 8 ≤ messageSize eS := by
  refine exchange_core (B := sS.halo) sS sT same hn cS cT oppS oppT hcS hcT
    (corner_link sS sT cS cT hS hT hcS hcT same.halo hFS hFT) rfl ?_ ?_ ?_ ?_
    hkS (by rw [← same.halo]; exact hkT) varLoc junkS junkT t ix pS pT hpS hpT hIS hIT
  · rw [isEdge_of_corner hS]; rfl
  · rw [isEdge_of_corner hT, ← same.halo]; rfl
  · rw [isEdge_of_corner hS]; simp
  · rw [isEdge_of_corner hT]; simp

/-! ### A concrete pair of patches -/

/-- A small setting: halo 2, five state variables, one tracer, three levels, 4 x 6 interior nodes. -/
def demoSet : Setting := ⟨2, 5, 1, 3, 4, 6⟩

/-- A field of the demonstration patch. -/
def demoField (tag : Int) (r : Nat) : Field Int := ⟨8, 10, r, fun i j k => tag + 100 * i + 10 * j + k⟩

/-- Its arrays; the values encode the node. -/
def demoPatch (n tag : Int) : Patch Int where
  index := n
  stateNode := [⟨true, .node, 5, 8, 10, 3, fun c => (demoField (tag + 1000 * c) 3).val⟩]
  stateREdge := [⟨true, .rEdge, 5, 8, 10, 4, fun c => (demoField (tag + 1000 * c) 4).val⟩]
  tracers := [⟨false, .node, 1, 8, 10, 3, fun c => (demoField (tag + 1000 * c) 3).val⟩]
  vorticity := demoField tag 3
  divergence := demoField tag 3
  temperature := demoField tag 3
  richardson := demoField tag 3
  topographyDeriv := demoField tag 2

theorem demo_sized (n tag : Int) : Sized demoSet (demoPatch n tag) := by
  constructor <;> simp [demoPatch, demoSet, demoField]

/-- Vertical velocity (variable 3) lives on interfaces, the rest on levels. -/
def demoLoc (c : Nat) : Loc := if c = 3 then .rEdge else .node

/-! ### C19 -/

/-- C19.  Any two patches of a run connected across an edge: whatever is exchanged (state, tracers, vorticity,
divergence, temperature, Richardson number, topography derivatives; any instance the patches have), the
exchange completes and the receiving patch is the old one with exactly the halo strips of the concerned arrays
filled from the sender's interior strip, mirrored if the connection is reversed. -/
theorem C19_edge_exchange (sS sT : Setting) (same : SameRun sS sT) (hn : NonTrivial sS) (cS cT : Conn)
    (oppS oppT : Dir) (hS : cS.dir.Edge) (hT : cT.dir.Edge) (hcS : cS.halo = sS.halo) (hcT : cT.halo = sT.halo)
    (hFS : Fits sS cS) (hFT : Fits sT cT) (hl : cT.len = cS.len)
    (varLoc : Nat → Loc) (junkS junkT : Nat → α) (t : XType) (ix : Nat) (pS pT : Patch α)
    (hpS : Sized sS pS) (hpT : Sized sT pT) (hIS : HasInstance pS t ix) (hIT : HasInstance pT t ix) :
    ∃ eS eT p', exchangePair varLoc junkS junkT sS pS cS.dir oppS cS.rev cS.first cS.second
        sT pT cT.dir oppT cT.rev cT.first cT.second t ix = .ok (eS, eT, p') ∧
      PatchDelivered (EdgeDelivered cS cT) varLoc t ix pS pT p' := by
  obtain ⟨eS, eT, p', h1, h2, _⟩ := edge_exchange sS sT same hn cS cT oppS oppT hS hT hcS hcT hFS hFT hl varLoc
    junkS junkT t ix pS pT hpS hpT hIS hIT
  exact ⟨eS, eT, p', h1, h2⟩

-- right edge of patch 0 to the (reversed) top edge of patch 1, four positions
example : ∃ eS eT p', exchangePair demoLoc (fun _ => 0) (fun _ => 0)
      demoSet (demoPatch 0 0) .right .top true 3 7 demoSet (demoPatch 1 50000) .top .right true 2 6 .state 0
        = .ok (eS, eT, p') ∧
    PatchDelivered (EdgeDelivered ⟨.right, 3, 7, 2, true⟩ ⟨.top, 2, 6, 2, true⟩) demoLoc .state 0
      (demoPatch 0 0) (demoPatch 1 50000) p' :=
  C19_edge_exchange demoSet demoSet ⟨rfl, rfl, rfl, rfl⟩ ⟨by decide, by decide⟩ ⟨.right, 3, 7, 2, true⟩
    ⟨.top, 2, 6, 2, true⟩ .top .right (by simp [Dir.Edge]) (by simp [Dir.Edge]) rfl rfl
    (by simp [Fits, demoSet]) (by simp [Fits, demoSet]) rfl demoLoc _ _ .state 0 _ _ (demo_sized _ _)
    (demo_sized _ _) (by simp [HasInstance, demoPatch]) (by simp [HasInstance, demoPatch])

/-- C19.  The nodes the specification speaks of are what their names say: the filled nodes are halo nodes of
the receiver; the nodes they are filled from are interior nodes of the sender, as long as the sender is at
least as wide as the halo. -/
theorem C19_nodes (s : Setting) (c : Conn) (hc : c.dir.Edge) (hh : c.halo = s.halo) (hF : Fits s c)
    (x y : Nat) (hx : x < s.halo) (hy : y < c.len) :
    InHalo s (edgeHalo c.dir (s.widthA + 2 * s.halo) (s.widthB + 2 * s.halo) c.halo c.first x y) ∧
    (s.halo ≤ s.widthA → s.halo ≤ s.widthB →
      Interior s (edgeInterior c.dir (s.widthA + 2 * s.halo) (s.widthB + 2 * s.halo) c.halo c.first x y)) := by
  unfold Conn.len at hy
  rcases hc with h | h | h | h <;>
    simp only [h, edgeHalo, edgeInterior, Fits, InHalo, Interior] at hF ⊢ <;> omega

example : InHalo demoSet (edgeHalo .right 8 10 2 2 1 5) ∧ Interior demoSet (edgeInterior .right 8 10 2 2 1 5) := by
  simp [InHalo, Interior, edgeHalo, edgeInterior, demoSet]

/-- C19.  A connection over a whole edge fills the whole halo strip of that edge: every node outside the edge
(not in a corner block) is one of the filled nodes. -/
theorem C19_whole_edge (s : Setting) (rev : Bool) (dir : Dir) (i j : Int)
    (h : (dir = .right ∧ (s.halo + s.widthA : Int) ≤ i ∧ i < 2 * s.halo + s.widthA ∧
            (s.halo : Int) ≤ j ∧ j < s.halo + s.widthB) ∨
         (dir = .left ∧ 0 ≤ i ∧ i < s.halo ∧ (s.halo : Int) ≤ j ∧ j < s.halo + s.widthB) ∨
         (dir = .top ∧ (s.halo + s.widthB : Int) ≤ j ∧ j < 2 * s.halo + s.widthB ∧
            (s.halo : Int) ≤ i ∧ i < s.halo + s.widthA) ∨
         (dir = .bottom ∧ 0 ≤ j ∧ j < s.halo ∧ (s.halo : Int) ≤ i ∧ i < s.halo + s.widthA))
    (junk : Nat → α) (src tgt : Int) (opp : Dir) :
    ∃ e, registerWhole s junk src tgt dir opp rev = .ok e ∧ ∃ x y, x < s.halo ∧
      y < (Conn.mk dir e.first e.second s.halo rev).len ∧
      (i, j) = edgeHalo dir (s.widthA + 2 * s.halo) (s.widthB + 2 * s.halo) s.halo e.first x y := by
  have reg : ∀ f g : Int, dir.Edge → f ≤ g → ∃ e, register s junk src tgt dir opp rev f g = .ok e ∧
      e.first = f ∧ e.second = g := by
    intro f g hd hfg
    unfold register
    rw [if_neg (by omega)]
    simp only [if_neg (edge_not_close hd _ _ _)]
    exact ⟨_, rfl, rfl, rfl⟩
  rcases h with ⟨rfl, h⟩ | ⟨rfl, h⟩ | ⟨rfl, h⟩ | ⟨rfl, h⟩
  · obtain ⟨e, h1, h2, h3⟩ := reg s.begin s.endB (by simp [Dir.Edge]) (by simp only [Setting.begin, Setting.endB]; omega)
    refine ⟨e, h1, (i - s.halo - s.widthA).toNat, (j - s.halo).toNat, by omega, ?_, ?_⟩
    · simp only [Conn.len, h2, h3, Setting.begin, Setting.endB]; omega
    · simp only [edgeHalo, h2, Setting.begin, Prod.mk.injEq]; omega
  · obtain ⟨e, h1, h2, h3⟩ := reg s.begin s.endB (by simp [Dir.Edge]) (by simp only [Setting.begin, Setting.endB]; omega)
    refine ⟨e, h1, (s.halo - 1 - i).toNat, (j - s.halo).toNat, by omega, ?_, ?_⟩
    · simp only [Conn.len, h2, h3, Setting.begin, Setting.endB]; omega
    · simp only [edgeHalo, h2, Setting.begin, Prod.mk.injEq]; omega
  · obtain ⟨e, h1, h2, h3⟩ := reg s.begin s.endA (by simp [Dir.Edge]) (by simp only [Setting.begin, Setting.endA]; omega)
    refine ⟨e, h1, (j - s.halo - s.widthB).toNat, (i - s.halo).toNat, by omega, ?_, ?_⟩
    · simp only [Conn.len, h2, h3, Setting.begin, Setting.endA]; omega
    · simp only [edgeHalo, h2, Setting.begin, Prod.mk.injEq]; omega
  · obtain ⟨e, h1, h2, h3⟩ := reg s.begin s.endA (by simp [Dir.Edge]) (by simp only [Setting.begin, Setting.endA]; omega)
    refine ⟨e, h1, (s.halo - 1 - j).toNat, (i - s.halo).toNat, by omega, ?_, ?_⟩
    · simp only [Conn.len, h2, h3, Setting.begin, Setting.endA]; omega
    · simp only [edgeHalo, h2, Setting.begin, Prod.mk.injEq]; omega

example : ∃ e, registerWhole (α := Int) demoSet (fun _ => 0) 0 1 .top .bottom false = .ok e ∧ ∃ x y, x < 2 ∧
    y < (Conn.mk .top e.first e.second 2 false).len ∧ ((3, 9) : Int × Int) = edgeHalo .top 8 10 2 e.first x y :=
  C19_whole_edge demoSet false .top 3 9 (by simp [demoSet]) _ 0 1 .bottom

/-! ### C20 -/

/-- C20.  Any two patches of a run connected across a corner, the corner nodes being far enough from the
opposite sides for the connection to be accepted: the exchange completes and the receiving patch is the old
one with exactly the halo block outside its corner filled from the block inside the sender's corner (alpha and
beta depths exchanged if the connection is reversed). -/
theorem C20_corner_exchange (sS sT : Setting) (same : SameRun sS sT) (hn : NonTrivial sS) (cS cT : Conn)
    (oppS oppT : Dir) (hS : cS.dir.Corner) (hT : cT.dir.Corner) (hcS : cS.halo = sS.halo)
    (hcT : cT.halo = sT.halo) (hFS : Fits sS cS) (hFT : Fits sT cT)
    (hkS : ¬ cornerTooClose sS cS.dir cS.first cS.second sS.halo)
    (hkT : ¬ cornerTooClose sT cT.dir cT.first cT.second sT.halo)
    (varLoc : Nat → Loc) (junkS junkT : Nat → α) (t : XType) (ix : Nat) (pS pT : Patch α)
    (hpS : Sized sS pS) (hpT : Sized sT pT) (hIS : HasInstance pS t ix) (hIT : HasInstance pT t ix) :
    ∃ eS eT p', exchangePair varLoc junkS junkT sS pS cS.dir oppS cS.rev cS.first cS.second
        sT pT cT.dir oppT cT.rev cT.first cT.second t ix = .ok (eS, eT, p') ∧
      PatchDelivered (CornerDelivered cS cT) varLoc t ix pS pT p' := by
  obtain ⟨eS, eT, p', h1, h2, _⟩ := corner_exchange sS sT same hn cS cT oppS oppT hS hT hcS hcT hFS hFT hkS hkT
    varLoc junkS junkT t ix pS pT hpS hpT hIS hIT
  exact ⟨eS, eT, p', h1, h2⟩

-- top-right corner of patch 0 to the bottom-left corner of patch 1
example : ∃ eS eT p', exchangePair demoLoc (fun _ => 0) (fun _ => 0)
      demoSet (demoPatch 0 0) .topRight .bottomLeft false 5 7
      demoSet (demoPatch 1 50000) .bottomLeft .topRight false 2 2 .tracers 0 = .ok (eS, eT, p') ∧
    PatchDelivered (CornerDelivered ⟨.topRight, 5, 7, 2, false⟩ ⟨.bottomLeft, 2, 2, 2, false⟩) demoLoc .tracers 0
      (demoPatch 0 0) (demoPatch 1 50000) p' :=
  C20_corner_exchange demoSet demoSet ⟨rfl, rfl, rfl, rfl⟩ ⟨by decide, by decide⟩ ⟨.topRight, 5, 7, 2, false⟩
    ⟨.bottomLeft, 2, 2, 2, false⟩ .bottomLeft .topRight (by simp [Dir.Corner]) (by simp [Dir.Corner]) rfl rfl
    (by simp [Fits, demoSet]) (by simp [Fits, demoSet]) (by decide) (by decide) demoLoc _ _ .tracers 0 _ _
    (demo_sized _ _) (demo_sized _ _) (by simp [HasInstance, demoPatch]) (by simp [HasInstance, demoPatch])

/-- C20.  A corner connection is accepted exactly when the block it would send lies in the sender's interior
(halo width at least 1); the code rejects the others with an exception. -/
theorem C20_interior_block (s : Setting) (hh : 1 ≤ s.halo) (junk : Nat → α) (src tgt : Int) (dir opp : Dir)
    (rev : Bool) (a b : Int) (hd : dir.Corner) (hF : Fits s ⟨dir, a, b, s.halo, rev⟩) :
    ((∃ e, register s junk src tgt dir opp rev a b = .ok e) ↔
      ∀ x y, x < s.halo → y < s.halo → Interior s (cornerInterior dir a b x y)) ∧
    ((∃ e, register s junk src tgt dir opp rev a b = .ok e) ∨ register s junk src tgt dir opp rev a b = .exc) := by
  have key : (¬ cornerTooClose s dir a b s.halo) ↔
      ∀ x y, x < s.halo → y < s.halo → Interior s (cornerInterior dir a b x y) := by
    constructor
    · intro h x y hx hy
      rcases hd with e | e | e | e <;> subst e <;>
        simp only [cornerTooClose, Fits, Interior, cornerInterior, Setting.begin, Setting.endA, Setting.endB]
          at h hF ⊢ <;> omega
    · intro h
      have := h (s.halo - 1) (s.halo - 1) (by omega) (by omega)
      rcases hd with e | e | e | e <;> subst e <;>
        simp only [cornerTooClose, Fits, Interior, cornerInterior, Setting.begin, Setting.endA, Setting.endB]
          at this hF ⊢ <;> omega
  have he := isEdge_of_corner hd
  have hreg : register s junk src tgt dir opp rev a b =
      if cornerTooClose s dir a b s.halo then .exc else register s junk src tgt dir opp rev a b := by
    unfold register; simp only [he, Bool.false_eq_true, false_and, if_false]
    by_cases h : cornerTooClose s dir a b s.halo
    · simp only [if_pos h]
    · simp only [if_neg h]
  have hok : ¬ cornerTooClose s dir a b s.halo → ∃ e, register s junk src tgt dir opp rev a b = .ok e := by
    intro h
    unfold register; simp only [he, Bool.false_eq_true, false_and, if_false, if_neg h]
    exact ⟨_, rfl⟩
  by_cases h : cornerTooClose s dir a b s.halo
  · rw [if_pos h] at hreg
    refine ⟨?_, Or.inr hreg⟩
    constructor
    · rintro ⟨e, h'⟩; rw [hreg] at h'; cases h'
    · intro h'; exact absurd h (key.mpr h')
  · exact ⟨⟨fun _ => key.mp h, fun _ => hok h⟩, Or.inl (hok h)⟩

example : ∃ e, register (α := Int) demoSet (fun _ => 0) 0 1 .topRight .bottomLeft false 5 7 = .ok e :=
  (C20_interior_block demoSet (by decide) _ 0 1 .topRight .bottomLeft false 5 7 (by simp [Dir.Corner])
    (by simp [Fits, demoSet])).1.mpr (by
      intro x y hx hy; simp only [demoSet] at hx hy; simp only [Interior, cornerInterior, demoSet]; omega)

example : register (α := Int) demoSet (fun _ => 0) 0 1 .topRight .bottomLeft false 2 7 = .exc := by
  unfold register; rfl

/-- C20.  The halo block outside a patch corner (and outside any split point of an edge) consists of halo
nodes. -/
theorem C20_nodes (s : Setting) (x y : Nat) (hx : x < s.halo) (hy : y < s.halo) :
    InHalo s (cornerHalo .topRight (s.endA - 1) (s.endB - 1) x y) ∧
    InHalo s (cornerHalo .topLeft s.begin (s.endB - 1) x y) ∧
    InHalo s (cornerHalo .bottomLeft s.begin s.begin x y) ∧
    InHalo s (cornerHalo .bottomRight (s.endA - 1) s.begin x y) := by
  simp only [InHalo, Interior, cornerHalo, Setting.begin, Setting.endA, Setting.endB]
  omega

example : InHalo demoSet (cornerHalo .topRight 5 7 1 0) := (C20_nodes demoSet 1 0 (by decide) (by decide)).1

/-! ### C21 -/

/-- C21.  For every edge connection and every exchanged data type, the sender packs exactly
(values per node) x (halo width) x (edge length) values after the two-word header, the receiver unpacks
exactly as many, both sides reserved messages of the same size, and the packed message fits the reserved
size. -/
theorem C21_edge_size (sS sT : Setting) (same : SameRun sS sT) (hn : NonTrivial sS) (cS cT : Conn)
    (oppS oppT : Dir) (hS : cS.dir.Edge) (hT : cT.dir.Edge) (hcS : cS.halo = sS.halo) (hcT : cT.halo = sT.halo)
    (hFS : Fits sS cS) (hFT : Fits sT cT) (hl : cT.len = cS.len)
    (varLoc : Nat → Loc) (junkS junkT : Nat → α) (t : XType) (ix : Nat) (pS pT : Patch α)
    (hpS : Sized sS pS) (hpT : Sized sT pT) (hIS : HasInstance pS t ix) (hIT : HasInstance pT t ix) :
    ∃ eS eT p', exchangePair varLoc junkS junkT sS pS cS.dir oppS cS.rev cS.first cS.second
        sT pT cT.dir oppT cT.rev cT.first cT.second t ix = .ok (eS, eT, p') ∧
      eS.ixSend = 2 + sS.halo * cS.len * valuesPerNode sS varLoc t ∧ eT.ixRecv = eS.ixSend ∧
      messageSize eS = messageSize eT ∧ eS.ixSend * 8 ≤ messageSize eS := by
  obtain ⟨eS, eT, p', h1, _, h3⟩ := edge_exchange sS sT same hn cS cT oppS oppT hS hT hcS hcT hFS hFT hl varLoc
    junkS junkT t ix pS pT hpS hpT hIS hIT
  exact ⟨eS, eT, p', h1, h3⟩

/-- C21, corner connections. -/
theorem C21_corner_size (sS sT : Setting) (same : SameRun sS sT) (hn : NonTrivial sS) (cS cT : Conn)
    (oppS oppT : Dir) (hS : cS.dir.Corner) (hT : cT.dir.Corner) (hcS : cS.halo = sS.halo)
    (hcT : cT.halo = sT.halo) (hFS : Fits sS cS) (hFT : Fits sT cT)
    (hkS : ¬ cornerTooClose sS cS.dir cS.first cS.second sS.halo)
    (hkT : ¬ cornerTooClose sT cT.dir cT.first cT.second sT.halo)
    (varLoc : Nat → Loc) (junkS junkT : Nat → α) (t : XType) (ix : Nat) (pS pT : Patch α)
    (hpS : Sized sS pS) (hpT : Sized sT pT) (hIS : HasInstance pS t ix) (hIT : HasInstance pT t ix) :
    ∃ eS eT p', exchangePair varLoc junkS junkT sS pS cS.dir oppS cS.rev cS.first cS.second
        sT pT cT.dir oppT cT.rev cT.first cT.second t ix = .ok (eS, eT, p') ∧
      eS.ixSend = 2 + sS.halo * sS.halo * valuesPerNode sS varLoc t ∧ eT.ixRecv = eS.ixSend ∧
      messageSize eS = messageSize eT ∧ eS.ixSend * 8 ≤ messageSize eS := by
  obtain ⟨eS, eT, p', h1, _, h3⟩ := corner_exchange sS sT same hn cS cT oppS oppT hS hT hcS hcT hFS hFT hkS hkT
    varLoc junkS junkT t ix pS pT hpS hpT hIS hIT
  exact ⟨eS, eT, p', h1, h3⟩

-- sixteen values per node in the demonstration setting: 4 variables on 3 levels, 1 on 4 interfaces
example : ∃ eS eT p', exchangePair demoLoc (fun _ => 0) (fun _ => 0)
      demoSet (demoPatch 0 0) .right .top true 3 7 demoSet (demoPatch 1 50000) .top .right true 2 6 .state 0
        = .ok (eS, eT, p') ∧ eS.ixSend = 2 + 2 * 4 * 16 ∧ eT.ixRecv = eS.ixSend ∧
      messageSize eS = messageSize eT ∧ eS.ixSend * 8 ≤ messageSize eS :=
  C21_edge_size demoSet demoSet ⟨rfl, rfl, rfl, rfl⟩ ⟨by decide, by decide⟩ ⟨.right, 3, 7, 2, true⟩
    ⟨.top, 2, 6, 2, true⟩ .top .right (by simp [Dir.Edge]) (by simp [Dir.Edge]) rfl rfl
    (by simp [Fits, demoSet]) (by simp [Fits, demoSet]) rfl demoLoc _ _ .state 0 _ _ (demo_sized _ _)
    (demo_sized _ _) (by simp [HasInstance, demoPatch]) (by simp [HasInstance, demoPatch])

/-! ### C66 -/

/-- C66 is false: asking for the data instance just past the last one is not reported; the range check uses
`>` where `>=` is meant and the array access that follows is undefined. -/
theorem C66_false : ∃ (p : Patch Int) (e : ExBuf Int), e.src = p.index ∧ p.stateNode.length = 1 ∧
    packPatch demoLoc p .state 1 e = .ub := by
  refine ⟨demoPatch 0 0, ⟨0, 1, .right, .left, 2, 5, 4, 6, 2, 8, false, ⟨0, 1, .left⟩, 1000, fun _ => 0, 1000, 1000,
    fun _ => 0, 2, 2⟩, rfl, rfl, rfl⟩

/-- C66, the part that holds: negative instance numbers, numbers beyond that, unknown data types and a patch
that is not the buffer's source are reported by an exception, on packing and on unpacking. -/
theorem C66_partial (varLoc : Nat → Loc) (p : Patch α) (t : XType) (ix : Int) (e : ExBuf α)
    (h : e.src ≠ p.index ∨ t = .other ∨ (t = .state ∧ (ix < 0 ∨ (p.stateNode.length : Int) < ix)) ∨
      (t = .tracers ∧ (ix < 0 ∨ (p.tracers.length : Int) < ix))) :
    packPatch varLoc p t ix e = .exc ∧ unpackPatch varLoc p t ix e = .exc := by
  unfold packPatch unpackPatch
  by_cases hs : e.src ≠ p.index
  · simp only [if_pos hs, and_self]
  · simp only [if_neg hs]
    rcases h with h | h | ⟨rfl, h⟩ | ⟨rfl, h⟩
    · exact absurd h hs
    · subst h; exact ⟨rfl, rfl⟩
    · simp only [gt_iff_lt, if_pos h, and_self]
    · simp only [gt_iff_lt, if_pos h, and_self]

example : packPatch demoLoc (demoPatch 0 0) .state 2 ⟨0, 1, .right, .left, 2, 5, 4, 6, 2, 8, false, ⟨0, 1, .left⟩,
    1000, fun _ => 0, 1000, 1000, fun _ => 0, 2, 2⟩ = .exc :=
  (C66_partial demoLoc _ .state 2 _ (by simp [demoPatch])).1

end Verif.Exchange
