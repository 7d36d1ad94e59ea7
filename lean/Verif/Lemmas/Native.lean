import Verif.Model.Native
import Verif.Lemmas.SeekableVolume

namespace MdRecover
open MdSpec

namespace NativeDev

/-- `w'` is a later state of the kernel as far as failures go: nothing new will fail. -/
def Later (w' w : NativeKernel) : Prop :=
  w'.files.schedule ⊆ w.files.schedule ∧ w'.ioctls ⊆ w.ioctls

theorem ioctl_spec (a : Option Nat) (w : NativeKernel) :
    ∃ w', w'.files = w.files ∧ w'.ioctls ⊆ w.ioctls ∧
      (ioctl a w = (w', reply a) ∨ ∃ c, some c ∈ w.ioctls ∧ ioctl a w = (w', .err (.os c))) := by
  rcases hw : w.ioctls with _ | ⟨_ | c, rest⟩
  · exact ⟨w, rfl, by rw [hw]; exact fun _ h => h, .inl (by simp only [ioctl, hw])⟩
  · exact ⟨{ w with ioctls := rest }, rfl, by simp, .inl (by simp only [ioctl, hw])⟩
  · exact ⟨{ w with ioctls := rest }, rfl, by simp, .inr ⟨c, by simp, by simp only [ioctl, hw]⟩⟩

/-- The file behind the handle, with a block size. -/
def file (d : NativeDev) (bs : Nat) : FileDev := ⟨d.ofd, d.content, bs⟩

/-- Seeking does not depend on the block size. -/
theorem seekRaw_blockSize {t : SeekFrom} {K K' : Kernel} {d : NativeDev} {b b' : Nat} {f : FileDev}
    {r : Res Nat} (h : FileDev.seekRaw t (K, d.file b) = ((K', f), r)) :
    f = d.file b ∧ FileDev.seekRaw t (K, d.file b') = ((K', d.file b'), r) := by
  have h1 : (FileDev.seekRaw t (K, d.file b)).1.2 = d.file b := by
    unfold FileDev.seekRaw
    cases t <;> dsimp only <;> split <;> rfl
  have h2 : FileDev.seekRaw t (K, d.file b') =
      (((FileDev.seekRaw t (K, d.file b)).1.1, d.file b'), (FileDev.seekRaw t (K, d.file b)).2) := by
    have key : ∀ (c : Prop) [i : Decidable c] [j : Decidable c] (T : Nat),
        (@ite ((Kernel × FileDev) × Res Nat) c i ((K, d.file b'), .err .invalidInput)
          (({ K with offset := fun i => if i = d.ofd then T else K.offset i }, d.file b'), .ok T)) =
        (((@ite ((Kernel × FileDev) × Res Nat) c j ((K, d.file b), .err .invalidInput)
          (({ K with offset := fun i => if i = d.ofd then T else K.offset i }, d.file b), .ok T)).1.1,
            d.file b'),
          (@ite ((Kernel × FileDev) × Res Nat) c j ((K, d.file b), .err .invalidInput)
          (({ K with offset := fun i => if i = d.ofd then T else K.offset i }, d.file b), .ok T)).2) := by
      intro c i j T
      by_cases hc : c <;> simp [hc]
    cases t <;> exact key _ _
  rw [h] at h1 h2
  exact ⟨h1, h2⟩

theorem onFile_eq {α : Type} (bs : Nat) (m : SM (Kernel × FileDev) α) (w : NativeKernel) (d : NativeDev)
    {K : Kernel} {f : FileDev} {r : Res α} (h : m (w.files, d.file bs) = ((K, f), r)) :
    onFile bs m (w, d) = (({ w with files := K }, d), r) := by
  simp only [onFile, SM.zoom]
  rw [show m (w.files, ⟨d.ofd, d.content, bs⟩) = ((K, f), r) from h]

/-- The disk and the tail of a native block device. -/
def IsStream (d : NativeDev) (k : Disk) (t : Bytes) : Prop :=
  ∃ bs, d.physical = some bs ∧ FileDev.IsStream (d.file bs) k t

/-- The disk of a native block device. -/
def IsDisk (d : NativeDev) (k : Disk) : Prop := ∃ t, IsStream d k t

theorem isStream_of (d : NativeDev) {bs : Nat} (h : d.physical = some bs) (h0 : 0 < bs) (h1 : bs < U32)
    (h2 : d.content.length < U64) :
    IsStream d ⟨bs, d.content.length / bs, d.content.take (d.content.length / bs * bs)⟩
      (d.content.drop (d.content.length / bs * bs)) :=
  ⟨bs, h, FileDev.isStream_of (d.file bs) h0 h1 h2⟩

section
variable (F : Prop) (G : NativeKernel → Prop) (hG : ∀ w w', G w → Later w' w → G w')
  (hFr : ∀ w c, G w → ReadEvent.fail c ∈ w.files.schedule → F)
  (hFi : ∀ w c, G w → some c ∈ w.ioctls → F)
include hG hFr hFi

theorem blockSize_aux {w : NativeKernel} {d : NativeDev} {bs : Nat} (hw : G w)
    (hd : d.physical = some bs) :
    ∃ w', G w' ∧ w'.files = w.files ∧ Later w' w ∧
      (blockSize d w = (w', .ok bs) ∨ (F ∧ ∃ e, blockSize d w = (w', .err e))) := by
  obtain ⟨w', h1, h2, h3⟩ := ioctl_spec d.physical w
  have hl : Later w' w := ⟨by rw [h1]; exact fun _ h => h, h2⟩
  refine ⟨w', hG _ _ hw hl, h1, hl, ?_⟩
  rcases h3 with h3 | ⟨c, hc, h3⟩
  · rw [hd] at h3
    exact .inl (by rw [blockSize, hd, h3]; rfl)
  · exact .inr ⟨hFi _ _ hw hc, _, h3⟩

theorem blockCount_aux {w : NativeKernel} {d : NativeDev} {bs : Nat} (hw : G w)
    (hd : d.physical = some bs) (hbs : 0 < bs) :
    ∃ w', G w' ∧ (blockCount d w = (w', .ok (d.content.length / bs)) ∨
      (F ∧ ∃ e, blockCount d w = (w', .err e))) := by
  obtain ⟨w1, h1, h2, h3⟩ := ioctl_spec (d.physical.map fun _ => d.content.length) w
  have hw1 : G w1 := hG _ _ hw ⟨by rw [h1]; exact fun _ h => h, h2⟩
  unfold blockCount
  rcases h3 with h3 | ⟨c, hc, h3⟩
  · rw [hd] at h3 ⊢
    rw [SM.bind_ok (h := h3)]
    obtain ⟨w2, hw2, -, -, h4⟩ := blockSize_aux F G hG hFr hFi hw1 hd
    refine ⟨w2, hw2, ?_⟩
    rcases h4 with h4 | ⟨hF, e, h4⟩
    · left
      rw [SM.bind_ok (h := h4), SM.lift_apply, divP, if_neg (by omega)]
    · exact .inr ⟨hF, e, SM.bind_err (h := h4) _⟩
  · exact ⟨w1, hw1, .inr ⟨hFi _ _ hw hc, _, SM.bind_err (h := h3) _⟩⟩

/-- Native block devices are block devices and streams. -/
theorem streamDevSpec_aux :
    StreamDevSpec F streamDev G IsStream (fun w d p => w.files.offset d.ofd = p) := by
  -- the file behind, in the worlds that satisfy `G` with the ioctl schedule of `w`
  have hfile : ∀ il : List (Option Nat), StreamDevSpec F FileDev.streamDev (fun K => G ⟨K, il⟩)
      FileDev.IsStream (fun K d p => K.offset d.ofd = p) := fun il =>
    FileDev.streamDevSpec_aux F _ (fun K K' hK hs => hG _ _ hK ⟨hs, fun _ h => h⟩)
      (fun K c hK hc => hFr _ c hK hc)
  refine ⟨⟨?_, ?_, ?_, ?_, ?_⟩, ?_, ?_⟩
  · rintro d k ⟨t, bs, hp, hd⟩
    exact (hfile []).toDev.wf ⟨t, hd⟩
  · rintro w d k hw ⟨t, bs, hp, hd⟩
    obtain ⟨w', hw', -, -, h⟩ := blockSize_aux F G hG hFr hFi hw hp
    have hk : k.bs = bs := by
      obtain ⟨⟨-, -, -, rfl⟩, -⟩ := hd
      rfl
    change G (blockSize d w).1 ∧ Gives F (blockSize d w).2 k.bs
    rcases h with h | ⟨hF, e, h⟩ <;> rw [h]
    · exact ⟨hw', .inl (by rw [hk])⟩
    · exact ⟨hw', .inr ⟨hF, e, rfl⟩⟩
  · rintro w d k hw ⟨t, bs, hp, hd⟩
    obtain ⟨⟨h0, -, -, rfl⟩, -⟩ := hd
    obtain ⟨w', hw', h⟩ := blockCount_aux F G hG hFr hFi hw hp h0
    change G (blockCount d w).1 ∧ Gives F (blockCount d w).2 (d.content.length / bs)
    rcases h with h | ⟨hF, e, h⟩ <;> rw [h]
    · exact ⟨hw', .inl rfl⟩
    · exact ⟨hw', .inr ⟨hF, e, rfl⟩⟩
  · rintro w d k hw ⟨t, bs, hp, hd⟩ b buf hb hbuf
    obtain ⟨w1, hw1, hf1, -, h⟩ := blockSize_aux F G hG hFr hFi hw hp
    change G (readBlock b buf (w, d)).1.1 ∧ (∃ t, IsStream (readBlock b buf (w, d)).1.2 k t) ∧
      Gives F (readBlock b buf (w, d)).2 _
    rcases h with h | ⟨hF, e, h⟩
    · obtain ⟨g1, g2, g3⟩ := (hfile w1.ioctls).toDev.readBlock (w := w1.files) hw1 ⟨t, hd⟩ b buf hb hbuf
      rcases hr : FileDev.streamDev.readBlock b buf (w1.files, d.file bs) with ⟨⟨K, f⟩, r⟩
      rw [hr] at g1 g2 g3
      have h2 : readBlock b buf (w, d) = (({ w1 with files := K }, d), r) := by
        unfold readBlock
        rw [SM.bind_ok (h := SM.get_apply _)]
        rw [SM.bind_ok (a := bs) (s' := (w1, d)) (h := by simp only [SM.zoom, h])]
        exact onFile_eq bs _ w1 d hr
      rw [h2]
      exact ⟨g1, ⟨t, bs, hp, hd⟩, g3⟩
    · have h2 : readBlock b buf (w, d) = ((w1, d), .err e) := by
        unfold readBlock
        rw [SM.bind_ok (h := SM.get_apply _)]
        exact SM.bind_err (s' := (w1, d)) (h := by simp only [SM.zoom, h]) _
      rw [h2]
      exact ⟨hw1, ⟨t, bs, hp, hd⟩, .inr ⟨hF, e, rfl⟩⟩
  · rintro w d k hw ⟨t, hd⟩
    exact ⟨hw, .inl ⟨d, rfl, t, hd⟩⟩
  · rintro w d k t hw ⟨bs, hp, hd⟩ p hpl w' d' r h
    rcases hs : FileDev.streamDev.seek (.start p) (w.files, d.file bs) with ⟨⟨K, f⟩, q⟩
    obtain ⟨g1, -, g3⟩ := (hfile w.ioctls).seek (w := w.files) hw hd p hpl hs
    obtain ⟨hf, hs0⟩ := seekRaw_blockSize (d := d) (b := bs) (b' := 0) (f := f) (K := w.files)
      (t := .start p) (K' := K) (r := q) hs
    have h2 : streamDev.seek (.start p) (w, d) = (({ w with files := K }, d), q) :=
      onFile_eq 0 _ w d hs0
    rw [h2] at h
    cases h
    subst hf
    exact ⟨g1, ⟨bs, hp, hd⟩, g3⟩
  · rintro w d k t p hw ⟨bs, hp, hd⟩ hA buf w' d' r h
    rcases hs : FileDev.streamDev.read buf (w.files, d.file bs) with ⟨⟨K, f⟩, q⟩
    obtain ⟨g1, -, g3⟩ := (hfile w.ioctls).read (w := w.files) (d := d.file bs) hw hd hA buf hs
    have hs0 : FileDev.readRaw buf (w.files, d.file 0) = ((K, d.file 0), q) := by
      simp only [FileDev.streamDev, FileDev.readRaw, FileDev.deliver, file] at hs ⊢
      split at hs <;> cases hs <;> simp_all
    have hf : f = d.file bs := by
      simp only [FileDev.streamDev, FileDev.readRaw, FileDev.deliver, file] at hs ⊢
      split at hs <;> cases hs <;> rfl
    have h2 : streamDev.read buf (w, d) = (({ w with files := K }, d), q) :=
      onFile_eq 0 _ w d hs0
    rw [h2] at h
    cases h
    subst hf
    exact ⟨g1, ⟨bs, hp, hd⟩, g3⟩

end

/-- Native block devices are volumes; also files that are not block devices (reading and seeking use no
ioctl). -/
theorem volumeSpec_aux (F : Prop) (G : NativeKernel → Prop)
    (hG : ∀ (K K' : Kernel) (il : List (Option Nat)), G ⟨K, il⟩ → K'.schedule ⊆ K.schedule →
      K'.beyond = K.beyond → G ⟨K', il⟩)
    (hFr : ∀ w c, G w → ReadEvent.fail c ∈ w.files.schedule → F) :
    VolumeSpec F streamDev G (fun d c => d.content = c) (fun w d p => w.files.offset d.ofd = p) := by
  have hfile : ∀ il : List (Option Nat), VolumeSpec F FileDev.streamDev (fun K => G ⟨K, il⟩)
      (fun d c => d.content = c) (fun K d p => K.offset d.ofd = p) := fun il =>
    FileDev.volumeSpec_aux F _ (fun K K' hK hs hb => hG K K' il hK hs hb)
      (fun K c hK hc => hFr _ c hK hc)
  refine ⟨?_, ?_, ?_⟩
  · rintro w d c hw rfl p hpl w' d' r h
    rcases hs : FileDev.streamDev.seek (.start p) (w.files, d.file 0) with ⟨⟨K, f⟩, q⟩
    obtain ⟨g1, g2, g3⟩ := (hfile w.ioctls).seek (w := w.files) (c := d.content) hw rfl p hpl hs
    have h2 : streamDev.seek (.start p) (w, d) = (({ w with files := K }, d), q) :=
      onFile_eq 0 _ w d hs
    rw [h2] at h
    cases h
    have hf : f = d.file 0 := by
      simp only [FileDev.streamDev, FileDev.seekRaw, file] at hs ⊢
      split at hs <;> cases hs <;> rfl
    subst hf
    exact ⟨g1, rfl, g3⟩
  · rintro w d c p hw rfl hA buf w' d' r h
    rcases hs : FileDev.streamDev.read buf (w.files, d.file 0) with ⟨⟨K, f⟩, q⟩
    obtain ⟨g1, g2, g3⟩ := (hfile w.ioctls).read (w := w.files) (d := d.file 0) (c := d.content) hw rfl
      hA buf hs
    have hf : f = d.file 0 := by
      simp only [FileDev.streamDev, FileDev.readRaw, FileDev.deliver, file] at hs ⊢
      split at hs <;> cases hs <;> rfl
    have h2 : streamDev.read buf (w, d) = (({ w with files := K }, d), q) :=
      onFile_eq 0 _ w d hs
    rw [h2] at h
    cases h
    subst hf
    exact ⟨g1, rfl, g3⟩
  · rintro w d c hw rfl w' r h
    cases h
    exact ⟨hw, .inl ⟨_, rfl, rfl⟩⟩

/-- Nothing will fail. -/
def NoFailures (w : NativeKernel) : Prop :=
  FileDev.NoFailures w.files ∧ ∀ c, some c ∉ w.ioctls

theorem streamDevSpec_honest : StreamDevSpec True streamDev (fun _ => True) IsStream
    (fun w d p => w.files.offset d.ofd = p) :=
  streamDevSpec_aux True _ (fun _ _ _ _ => trivial) (fun _ _ _ _ => trivial) (fun _ _ _ _ => trivial)

theorem streamDevSpec_reliable : StreamDevSpec False streamDev NoFailures IsStream
    (fun w d p => w.files.offset d.ofd = p) :=
  streamDevSpec_aux False _ (fun _ _ h hl => ⟨fun c hc => h.1 c (hl.1 hc), fun c hc => h.2 c (hl.2 hc)⟩)
    (fun _ c h hc => h.1 c hc) (fun _ c h hc => h.2 c hc)

/-- A native block device whose reads may fail, and that may refuse positions beyond its end. -/
theorem seekableVolume_honest : SeekableVolume True noLimit streamDev (fun _ => True)
    (fun d c => d.content = c) (fun w d p => w.files.offset d.ofd = p) :=
  { volumeSpec_aux True _ (fun _ _ _ _ _ _ => trivial) (fun _ _ _ _ => trivial) with
    seekAccepted := fun {w d _} _ _ p _ _ => by
      rcases FileDev.seek_cases w.files (d.file 0) p with ⟨-, h⟩ | ⟨-, h⟩
      · exact .inl h
      · exact .inr ⟨trivial, _, h⟩
    seekRefused := fun _ _ p hp h => absurd h (by simp only [noLimit]; omega) }

/-- A native block device whose reads do not fail (short reads allowed); `b` is 0 on Linux.  Its ioctls
may fail: reading and seeking do not use them. -/
theorem seekableVolume_reliable (b : Nat) : SeekableVolume False (· + b) streamDev
    (fun w => FileDev.Reliable b w.files) (fun d c => d.content = c)
    (fun w d p => w.files.offset d.ofd = p) :=
  { volumeSpec_aux False _ (fun _ _ _ h hs hb => ⟨fun c hc => h.1 c (hs hc), fun i => hb ▸ h.2 i⟩)
      (fun _ c h hc => h.1 c hc) with
    seekAccepted := by
      rintro w d c hw rfl p - hp
      have hb := hw.2 d.ofd
      rcases FileDev.seek_cases w.files (d.file 0) p with ⟨-, h⟩ | ⟨h, -⟩
      · exact .inl h
      · simp only [file] at h; omega
    seekRefused := by
      rintro w d c hw rfl p - hp
      have hb := hw.2 d.ofd
      rcases FileDev.seek_cases w.files (d.file 0) p with ⟨h, -⟩ | ⟨-, h⟩
      · simp only [file] at h; omega
      · exact .inl h }

end NativeDev
end MdRecover
