import Verif.Lemmas.Native
import Verif.Props.Ext4Session

/-! C76 for the devices the program opens: native block devices. -/

namespace MdRecover
open MdSpec Fixture

/-- C76, a case: the program of `C76_case` on a block device with physical blocks of 4096 bytes, with short
reads, and on a file that cannot be positioned beyond its end either.  All handles share one cursor. -/
theorem C76_native_case : sessionRun NativeDev.streamDev
      (⟨⟨fun _ => 77, [.upTo 100, .upTo 3, .upTo 1], fun _ => 0⟩, [none, none]⟩,
        [.device ⟨5, smallFs, some 4096⟩]) program =
    sessionRun FileDev.streamDev (⟨fun _ => 0, [], fun _ => 0⟩, [.device ⟨0, smallFs, 512⟩]) program :=
  C76_same_outcomes (NativeDev.seekableVolume_reliable 0) (FileDev.seekableVolume_reliable 0) smallFs
    _ _ _ _ ⟨by intro c h; simp at h, fun _ => rfl⟩ ⟨by intro c h; simp at h, fun _ => rfl⟩ rfl rfl rfl _
    program_wellTyped

/-- C76 for native block devices: whatever fails, a program sees what it would see on an in-memory device
with the same bytes, up to the first error that comes from a failure or from a position beyond the end. -/
theorem C76_native (w : NativeKernel) (d : NativeDev) (bs : Nat) (ops : List (Nat × SessionCall))
    (hops : ∀ x ∈ ops, x.2.wellTyped) :
    sessionRun NativeDev.streamDev (w, [.device d]) ops =
      sessionRun InMemory.streamDev ((), [.device (InMemory.new d.content bs)]) ops ∨
    ∃ k e, (sessionRun NativeDev.streamDev (w, [.device d]) ops).take k =
        (sessionRun InMemory.streamDev ((), [.device (InMemory.new d.content bs)]) ops).take k ∧
      (sessionRun NativeDev.streamDev (w, [.device d]) ops)[k]? = some (.error e) := by
  rcases C76_failing_device NativeDev.seekableVolume_honest InMemory.seekableVolume d.content w () d
    (InMemory.new d.content bs) trivial trivial rfl rfl (.inl rfl) ops hops with h | ⟨-, h⟩
  · exact .inl h
  · exact .inr h

end MdRecover
