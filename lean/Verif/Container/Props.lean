/-
Properties C13 and C14: layout and ownership of container memory.
-/
import Verif.Container.Lemmas
import Verif.Mem.Model

namespace Verif.Container

/-! ### C13 -/

/-- C13: `Allocate` on an unattached container with distinct, unattached, 8-byte sized chunks obtains one buffer
of exactly the summed size; the `k`-th chunk added starts where the preceding chunks end, so chunks are
consecutive in order of addition, do not overlap, tile the buffer and are 8-byte aligned. -/
theorem C13_allocate_layout (s : St) (hp : s.ptr = none) (hn : s.chunks.Nodup) (hu : ∀ c ∈ s.chunks, s.at_ c = none)
    (ha : ∀ c ∈ s.chunks, s.size c % 8 = 0) :
    ∃ s', allocate true s = .ok s' ∧ s'.ptr = some (.own s.alloced.length) ∧
      s'.alloced = s.alloced ++ [before s s.chunks.length] ∧
      (∀ k c, s.chunks[k]? = some c → s'.at_ c = some (.own s.alloced.length, before s k)) ∧
      (∀ k c, s.chunks[k]? = some c → before s (k + 1) = before s k + s.size c) ∧
      (∀ k, before s k % 8 = 0) ∧ (∀ j k, j ≤ k → before s j ≤ before s k) ∧
      ∀ c, c ∉ s.chunks → s'.at_ c = s.at_ c := by
  have ht : totalByteSize s.size s.chunks = some (before s s.chunks.length) := by
    rw [totalByteSize_eq _ _ ha]; simp [before]
  obtain ⟨s', e, h1, h2⟩ := attachAll_ok (.own s.alloced.length) s.chunks 0
    { s with ptr := some (.own s.alloced.length), alloced := s.alloced ++ [before s s.chunks.length] } hn hu
  have hf := attachAll_fields (.own s.alloced.length) s.chunks 0
    { s with ptr := some (.own s.alloced.length), alloced := s.alloced ++ [before s s.chunks.length] }
  rw [e] at hf
  refine ⟨s', ?_, hf.2.2.2.1, hf.2.2.2.2.1, ?_, ?_, ?_, ?_, h2⟩
  · unfold allocate; rw [if_neg (by simp [hp]), ht]; simp only; rw [if_neg (by simp)]; exact e
  · intro k c hk; rw [h1 k c hk]; simp [before]
  · intro k c hk
    unfold before
    rw [List.take_add_one, hk]; simp
  · intro k; exact take_sum_mod _ _ _ ha
  · intro j k hjk
    unfold before
    rw [show k = j + (k - j) by omega, List.take_add]
    simp

/-- C13: the same layout inside the caller's buffer for `AttachTo`. -/
theorem C13_attach_layout (s : St) (n : Nat) (hp : s.ptr = none) (hn : s.chunks.Nodup)
    (hu : ∀ c ∈ s.chunks, s.at_ c = none) :
    ∃ s', attachTo n s = .ok s' ∧ s'.ptr = some (.ext n) ∧ s'.alloced = s.alloced ∧
      ∀ k c, s.chunks[k]? = some c → s'.at_ c = some (.ext n, before s k) := by
  obtain ⟨s', e, h1, h2⟩ := attachAll_ok (.ext n) s.chunks 0 { s with owns := false, ptr := some (.ext n) } hn hu
  have hf := attachAll_fields (.ext n) s.chunks 0 { s with owns := false, ptr := some (.ext n) }
  rw [e] at hf
  refine ⟨s', ?_, hf.2.2.2.1, hf.2.2.2.2.1, ?_⟩
  · unfold attachTo; rw [if_neg (by simp [hp])]; exact e
  · intro k c hk; rw [h1 k c hk]; simp [before]

/-- C13: a chunk whose size is not a multiple of 8 makes `Allocate` throw before anything happens. -/
theorem C13_misaligned_refused (s : St) (m : Bool) (h : ∃ c ∈ s.chunks, s.size c % 8 ≠ 0) :
    allocate m s = .exc s := by
  unfold allocate
  rw [totalByteSize_none _ _ h]
  simp

/-- C13: the arrays of the library always have a byte size that is a multiple of 8 and holds all elements, so
they are never refused. -/
theorem C13_array_sizes_aligned (a : Mem.Arr) :
    Mem.byteSize a % 8 = 0 ∧ a.shape.prod * a.sz ≤ Mem.byteSize a := by
  unfold Mem.byteSize Mem.total
  split_ifs <;> constructor <;> omega

/-- Three chunks of 16, 0 and 24 bytes. -/
def exSt : St := run [.push 2, .push 0, .push 5] (init fun c => if c = 2 then 16 else if c = 5 then 24 else 0)

example : exSt.ptr = none ∧ exSt.chunks.Nodup ∧ (∀ c ∈ exSt.chunks, exSt.at_ c = none) ∧
    (∀ c ∈ exSt.chunks, exSt.size c % 8 = 0) ∧ before exSt 3 = 40 := by
  refine ⟨rfl, by decide, by decide, by decide, by decide⟩

example : ∃ c ∈ (run [.push 1] (init fun _ => 12)).chunks, (run [.push 1] (init fun _ => 12)).size c % 8 ≠ 0 :=
  ⟨1, by decide, by decide⟩

/-! ### C14 -/

/-- C14: whatever calls a program makes on a container (also ones that throw), once the container is destroyed
every buffer it obtained has been released exactly once and no buffer of the caller has been released. -/
theorem C14_released_exactly_once (size : Nat → Nat) (ops : List Op) :
    let s := destroy (run ops (init size))
    s.freed.Nodup ∧ ∀ b, b ∈ s.freed ↔ ∃ n, n < s.alloced.length ∧ b = .own n := by
  have h := run_inv ops _ (init_inv size)
  have e : (destroy (run ops (init size))).freed = obtained (run ops (init size)) := release_eq _ h
  simp only
  rw [e]
  constructor
  · unfold obtained
    exact List.Nodup.map (by intro a b h; injection h) List.nodup_range
  · intro b
    unfold obtained
    simp only [List.mem_map, List.mem_range, destroy]
    constructor
    · rintro ⟨n, h1, rfl⟩; exact ⟨n, h1, rfl⟩
    · rintro ⟨n, h1, rfl⟩; exact ⟨n, h1, rfl⟩

/-- C14: at every moment before destruction the buffer in use has not been released, and no buffer has been
released twice. -/
theorem C14_in_use_not_released (size : Nat → Nat) (ops : List Op) :
    let s := run ops (init size)
    s.freed.Nodup ∧ ∀ b, s.ptr = some b → b ∉ s.freed := by
  have h := run_inv ops _ (init_inv size)
  have hn : (obtained (run ops (init size))).Nodup := by
    unfold obtained
    exact List.Nodup.map (by intro a b h; injection h) List.nodup_range
  simp only
  rw [← h.log] at hn
  refine ⟨(List.nodup_append.mp hn).1, ?_⟩
  intro b hb hf
  cases b with
  | own n =>
    rw [hb] at hn
    exact (List.nodup_append.mp hn).2.2 _ hf _ (by simp) rfl
  | ext n =>
    have : Buf.ext n ∈ obtained (run ops (init size)) := by rw [← h.log]; exact List.mem_append_left _ hf
    unfold obtained at this
    simp at this

/-- C14: allocating or attaching while attached is refused and changes nothing; a failing malloc changes
nothing. -/
theorem C14_refused (s : St) :
    (s.ptr ≠ none → (∀ m, allocate m s = .exc s) ∧ ∀ n, attachTo n s = .exc s) ∧ allocate false s = .exc s := by
  refine ⟨fun h => ⟨fun m => ?_, fun n => ?_⟩, ?_⟩
  · unfold allocate; rw [if_pos h]
  · unfold attachTo; rw [if_pos h]
  · unfold allocate
    cases totalByteSize s.size s.chunks <;> simp

/-- C14: `Detach` leaves the container and all of its chunks unattached, so that it can be allocated again,
and touches no other chunk. -/
theorem C14_detach (s : St) : ∃ s', detach s = .ok s' ∧ s'.ptr = none ∧ (∀ c ∈ s.chunks, s'.at_ c = none) ∧
    (∀ c, c ∉ s.chunks → s'.at_ c = s.at_ c) ∧ s'.chunks = s.chunks ∧ s'.size = s.size :=
  ⟨_, rfl, rfl, fun c hc => detachAll_mem _ _ c hc, fun c hc => detachAll_not_mem _ _ c hc, rfl, rfl⟩

/-- A caveat the code leaves to the user: destroying a container that owns its memory releases the buffer but
leaves its chunks pointing into it. -/
theorem C14_destructor_leaves_chunks_dangling : ∃ ops : List Op, ∃ c b,
    let s := destroy (run ops (init fun _ => 16))
    (s.at_ c).map Prod.fst = some b ∧ b ∈ s.freed :=
  ⟨[.push 3, .allocate true], 3, .own 0, by decide, by decide⟩

example : (run [.push 3, .allocate true, .allocate true, .detach, .attachTo 1, .push 4, .detach, .allocate true]
    (init fun _ => 16)).freed = [.own 0] := by decide

end Verif.Container
