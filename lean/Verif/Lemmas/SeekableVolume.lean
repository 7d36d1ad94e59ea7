import Verif.Lemmas.Volume
import Verif.Spec.Ext4Session

/-! The devices of the program as volumes on which seeking fails only if the device does. -/

namespace MdRecover
open MdSpec

theorem InMemory.seekableVolume : SeekableVolume False noLimit InMemory.streamDev (fun _ => True)
    (fun d c => d.mem = c) (fun _ d p => d.pos = p ∧ p ≤ d.mem.length) :=
  { InMemory.volumeSpec with
    seekAccepted := fun _ _ _ _ _ => .inl ⟨_, rfl⟩
    seekRefused := fun _ _ p hp h => absurd h (by simp only [noLimit]; omega) }

namespace FileDev

theorem seek_cases (K : Kernel) (d : FileDev) (p : Nat) :
    (p ≤ d.content.length + K.beyond d.ofd ∧ ∃ q, (streamDev.seek (.start p) (K, d)).2 = .ok q) ∨
      (d.content.length + K.beyond d.ofd < p ∧
        (streamDev.seek (.start p) (K, d)).2 = .err .invalidInput) := by
  simp only [streamDev, seekRaw]
  split
  · exact .inr ⟨by omega, rfl⟩
  · exact .inl ⟨by omega, _, rfl⟩

/-- A file-backed device whose reads may fail, and that may refuse positions beyond its end. -/
theorem seekableVolume_honest : SeekableVolume True noLimit streamDev (fun _ => True)
    (fun d c => d.content = c) (fun K d p => K.offset d.ofd = p) :=
  { volumeSpec_honest with
    seekAccepted := fun {w d _} _ _ p _ _ => by
      rcases seek_cases w d p with ⟨-, h⟩ | ⟨-, h⟩
      · exact .inl h
      · exact .inr ⟨trivial, _, h⟩
    seekRefused := fun _ _ p hp h => absurd h (by simp only [noLimit]; omega) }

/-- Reads will not fail, and files can be positioned `b` bytes beyond their ends. -/
def Reliable (b : Nat) (K : Kernel) : Prop := NoFailures K ∧ ∀ i, K.beyond i = b

/-- A file-backed device without failures (short reads allowed). -/
theorem seekableVolume_reliable (b : Nat) : SeekableVolume False (· + b) streamDev (Reliable b)
    (fun d c => d.content = c) (fun K d p => K.offset d.ofd = p) :=
  { volumeSpec_aux False _ (fun _ _ h hs hb => ⟨fun c hc => h.1 c (hs hc), fun i => hb ▸ h.2 i⟩)
      (fun _ c h hc => h.1 c hc) with
    seekAccepted := by
      rintro w d c hw rfl p - hp
      have hb := hw.2 d.ofd
      rcases seek_cases w d p with ⟨-, h⟩ | ⟨h, -⟩
      · exact .inl h
      · omega
    seekRefused := by
      rintro w d c hw rfl p - hp
      have hb := hw.2 d.ofd
      rcases seek_cases w d p with ⟨h, -⟩ | ⟨-, h⟩
      · omega
      · exact .inl h }

end FileDev

theorem Reader.seekableVolume {W D : Type} {F : Prop} {dev : BlockDev W D} {G : W → Prop}
    {Is : D → Disk → Prop} (hd : DevSpec F dev G Is) (k : Disk) :
    SeekableVolume F noLimit (Reader.streamDev dev) G
      (fun r c => c = k.content ∧ ∃ pos, Reader.At Is k r pos)
      (fun _ r p => Reader.At Is k r p) :=
  { Reader.volumeSpec hd k with
    seekRefused := fun _ _ p hp h => absurd h (by simp only [noLimit]; omega)
    seekAccepted := by
      rintro w r c hG ⟨rfl, pos, hr⟩ p hp -
      obtain ⟨w1, r1, -, h1⟩ := Reader.seek_spec hd hG hr (.start p)
        (fun q hq => by cases hq; exact hp)
      rcases h1 with ⟨hF, e, h1, -⟩ | ⟨hbad, -, -⟩ | ⟨q, -, -, h1, -⟩
      · exact .inr ⟨hF, e, congrArg Prod.snd h1⟩
      · exact absurd ⟨by simp [seekGoal], by simp only [seekGoal]; omega⟩ hbad
      · exact .inl ⟨q, congrArg Prod.snd h1⟩ }

end MdRecover
