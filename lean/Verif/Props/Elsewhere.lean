import Verif.Lemmas.Elsewhere
import Verif.Props.Patchy

/-! C110: what is seen of a volume depends only on what is stored there. -/

namespace MdRecover
open MdSpec Fixture

section
variable [Build]

/-- C110, paths: let `c'` differ from `c` only in bytes that are neither of the superblock, nor of the group
descriptors, nor of the inodes on the path, nor of the blocks of their extent trees.  Then a volume with `c'` can
be opened, and following the path there gives what it gives on a volume with `c`: on all devices, up to
failures of the device and the bound on the loops. -/
theorem C110_path {bad : Nat → Prop} {c c' : Bytes} (hsame : SameExcept bad c c') (hc : Ext4Openable c)
    (hl : c.length < 2 ^ 57) (names : List Bytes) (out : Found) (hs : Says c names out)
    (hp : PathIntact bad c names) :
    Ext4Openable c' ∧ Says c' names out ∧
    ∃ N, ∀ {W D : Type} {F : Prop} {lim : Nat → Nat} {dev : StreamDev W D} {G : W → Prop}
      {Is : D → Bytes → Prop} {At : W → D → Nat → Prop}, SeekableVolume F lim dev G Is At →
      (lim c.length = U64 ∨ (F ∧ lim c.length ≤ U64)) →
      ∀ (w : W) (d : D), G w → Is d c ∨ Is d c' → ∀ rounds,
        (readPath dev rounds d names w).2 = .ok out ∨
        (F ∧ ∃ e, (readPath dev rounds d names w).2 = .err e) ∨
        (rounds < N ∧ (readPath dev rounds d names w).2 = .ok .running) := by
  have hc' := Elsewhere.openable hsame hp.1 hc
  have hs' := Elsewhere.says_same hsame hs hp
  obtain ⟨N, h⟩ := C98_failing_partial c hc hl names out hs
  obtain ⟨N', h'⟩ := C98_failing_partial c' hc' (by rw [hsame.1]; exact hl) names out hs'
  refine ⟨hc', hs', max N N', fun {W D F lim dev G Is At} hv hlim w d hG hd rounds => ?_⟩
  rcases hd with hd | hd
  · rcases h hv hlim w d hG hd rounds with h | h | ⟨h1, h2⟩
    · exact .inl h
    · exact .inr (.inl h)
    · exact .inr (.inr ⟨by omega, h2⟩)
  · rcases h' hv (by rw [hsame.1]; exact hlim) w d hG hd rounds with h | h | ⟨h1, h2⟩
    · exact .inl h
    · exact .inr (.inl h)
    · exact .inr (.inr ⟨by omega, h2⟩)

/-- C110, paths, on devices that do not fail (and may refuse positions beyond their ends). -/
theorem C110_reliable {W D : Type} {dev : StreamDev W D} {G : W → Prop} {Is : D → Bytes → Prop}
    {At : W → D → Nat → Prop} (hv : VolumeSpec False dev G Is At) {bad : Nat → Prop} {c c' : Bytes}
    (hsame : SameExcept bad c c') (hc : Ext4Openable c) (hl : c.length < 2 ^ 57) (names : List Bytes)
    (out : Found) (hs : Says c names out) (hp : PathIntact bad c names) (w : W) (hG : G w) (d : D)
    (hd : Is d c') :
    ∃ N, ∀ rounds, N ≤ rounds → (readPath dev rounds d names w).2 = .ok out := by
  obtain ⟨N, h, -⟩ := C98_reads_partial hv c' (Elsewhere.openable hsame hp.1 hc)
    (by rw [hsame.1]; exact hl) w hG d hd names out (Elsewhere.says_same hsame hs hp)
  exact ⟨N, h⟩

end

/-! ## All programs -/

/-- An in-memory device that fails when bytes are read some of which are among the bytes `bad`. -/
def blind (bad : Nat → Bool) : StreamDev Unit InMemory :=
  { InMemory.streamDev with
    read := fun buf s =>
      if ∀ i, i < buf.length → s.2.pos + i < s.2.mem.length → bad (s.2.pos + i) = false then
        InMemory.streamDev.read buf s
      else (s, .err (.os 5)) }

/-- It is a volume with every content that has the other bytes. -/
theorem blind_volume (bad : Nat → Bool) : SeekableVolume True noLimit (blind bad) (fun _ => True)
    (fun d c => SameExcept (fun x => bad x = true) d.mem c) (fun _ d p => d.pos = p ∧ p ≤ d.mem.length) where
  seek := by
    rintro w d c hG hI p hp w' d' r h
    have hlen := hI.1
    obtain ⟨h1, h2, h3⟩ := InMemory.volumeSpec.seek (w := w) (d := d) (c := d.mem) trivial rfl p hp h
    refine ⟨trivial, by rw [h2]; exact hI, ?_⟩
    rw [hlen]
    exact h3.imp_right fun h => ⟨.inl trivial, h.2⟩
  read := by
    rintro w d c p hG hI hA buf w' d' r h
    have hpos := hA.1
    unfold blind at h
    simp only at h
    split at h
    · rename_i hint
      obtain ⟨h1, h2, h3⟩ := InMemory.volumeSpec.read (w := w) (d := d) (c := d.mem) trivial rfl hA buf h
      refine ⟨trivial, by rw [h2]; exact hI, ?_⟩
      rcases h3 with ⟨j, buf', p', rfl, hr, hA'⟩ | ⟨hF, -⟩
      · refine .inl ⟨j, buf', p', rfl, ⟨hr.le, hr.moved, ?_, ?_, ?_⟩, hA'⟩
        · rw [hr.data, hI.slice (p := p) (len := j)]
          rw [← hpos]
          intro x h1 h2 h3
          have := hint (x - d.pos) (by have := hr.le; omega) (by omega)
          rw [show d.pos + (x - d.pos) = x by omega] at this
          exact fun h => Bool.noConfusion (h.symm.trans this)
        · rw [hI.1]; exact hr.inside
        · rw [hI.1]; exact hr.zero
      · exact hF.elim
    · cases h
      exact ⟨trivial, hI, .inr ⟨trivial, _, rfl⟩⟩
  tryClone := by
    rintro w d c hG hI w' r h
    cases h
    exact ⟨trivial, .inl ⟨_, rfl, hI⟩⟩
  seekAccepted := fun _ _ _ _ _ => .inl ⟨_, rfl⟩
  seekRefused := fun _ _ p hp h => absurd h (by simp only [noLimit]; omega)

section
variable [Build]

/-- C110, all programs: let `c'` differ from `c` only in the bytes `bad`.  Run a program with any calls on any
handles (C76) on `c`, but let reading any of the bytes `bad` fail.  As long as it shows no error, the same program
sees the same on `c` and on `c'`. -/
theorem C110_program {bad : Nat → Bool} {c c' : Bytes} (hsame : SameExcept (fun x => bad x = true) c c') (bs bs' : Nat)
    (ops : List (Nat × SessionCall)) (hops : ∀ x ∈ ops, x.2.wellTyped) (k : Nat)
    (hno : ∀ e, SessionOut.error e ∉
      (sessionRun (blind bad) ((), [.device (InMemory.new c bs)]) ops).take k) :
    (sessionRun InMemory.streamDev ((), [.device (InMemory.new c' bs')]) ops).take k =
      (sessionRun InMemory.streamDev ((), [.device (InMemory.new c bs)]) ops).take k := by
  have one : ∀ x : Bytes, SameExcept (fun x => bad x = true) c x → ∀ b : Nat,
      (sessionRun (blind bad) ((), [.device (InMemory.new c bs)]) ops).take k =
        (sessionRun InMemory.streamDev ((), [.device (InMemory.new x b)]) ops).take k := by
    intro x hx b
    rcases C76_failing_device (blind_volume bad) InMemory.seekableVolume x () () (InMemory.new c bs)
      (InMemory.new x b) trivial trivial hx rfl (.inl rfl) ops hops with h | ⟨-, m, e, h1, h2⟩
    · rw [h]
    · have hk : k ≤ m := by
        by_contra hlt
        refine hno e ?_
        refine List.mem_of_getElem? (i := m) ?_
        rw [List.getElem?_take, if_pos (by omega)]
        exact h2
      have := congrArg (List.take k) h1
      rwa [List.take_take, List.take_take, Nat.min_eq_left hk] at this
  rw [← one c' hsame bs', ← one c ⟨rfl, fun _ _ => rfl⟩ bs]

/-- C110, all programs: if no error is shown at all, the whole run is the same, and it is that on the device that
hides the bytes `bad`. -/
theorem C110_hidden {bad : Nat → Bool} {c c' : Bytes} (hsame : SameExcept (fun x => bad x = true) c c') (bs bs' : Nat)
    (ops : List (Nat × SessionCall)) (hops : ∀ x ∈ ops, x.2.wellTyped)
    (hno : ∀ e, SessionOut.error e ∉ sessionRun (blind bad) ((), [.device (InMemory.new c bs)]) ops) :
    sessionRun InMemory.streamDev ((), [.device (InMemory.new c' bs')]) ops =
      sessionRun (blind bad) ((), [.device (InMemory.new c bs)]) ops := by
  rcases C76_failing_device (blind_volume bad) InMemory.seekableVolume c' () () (InMemory.new c bs)
    (InMemory.new c' bs') trivial trivial hsame rfl (.inl rfl) ops hops with h | ⟨-, m, e, -, h2⟩
  · exact h.symm
  · exact absurd (List.mem_of_getElem? h2) (hno e)

/-! ## Cases -/

/-- C110, a case: whatever is in the bytes of the hand-made filesystem that are not needed for the file "data", its
content is read. -/
theorem C110_case (c' : Bytes) (hlen : c'.length = 13312)
    (h : ∀ x, neededByte x → c'[x]? = smallFs[x]?) : ∃ N, ∀ rounds, N ≤ rounds →
    (readPath InMemory.streamDev rounds (InMemory.new c' 512) [[100, 97, 116, 97]] ()).2 =
      .ok (.content ((smallFs.drop 8192).take 2500)) :=
  C110_reliable InMemory.volumeSpec (bad := fun x => ¬ neededByte x) (c := smallFs)
    ⟨by rw [hlen, smallFs_length], fun x hx => h x (Classical.not_not.mp hx)⟩ fixture_openable.2
    (by rw [smallFs_length]; decide) _ _ data_says (data_intact fun _ h => h) () trivial _ rfl

/-- The bytes that the program of C76 needs. -/
def Fixture.programBytes (x : Nat) : Bool :=
  1024 ≤ x && x < 2112 || 3328 ≤ x && x < 3840 || 5120 ≤ x && x < 7168 || 8192 ≤ x && x < 11264

set_option maxRecDepth 100000 in
theorem program_blind : sessionRun (blind fun x => !programBytes x) ((), [.device (InMemory.new smallFs 512)])
      (program.take 11) =
    [.done, .number 1024, .newFile, .number 2500, .newDirectory,
      .data 1024 ((smallFs.drop 8192).take 1024), .entry (some ⟨[2, 0, 0, 0, 12, 0, 1, 2, 46, 0, 0, 0]⟩),
      .data 1024 ((smallFs.drop 9216).take 1024), .data 452 ((smallFs.drop 10240).take 1024),
      .data 0 (zeros 1024), .noSuchHandle] := by
  rw [smallFs]
  decide +kernel +revert

/-- C110, a case: the program of C76, up to its last call, on a volume of which nothing is known but these bytes. -/
theorem C110_program_case (c' : Bytes) (hlen : c'.length = 13312)
    (h : ∀ x, programBytes x = true → c'[x]? = smallFs[x]?) :
    sessionRun InMemory.streamDev ((), [.device (InMemory.new c' 4096)]) (program.take 11) =
      [.done, .number 1024, .newFile, .number 2500, .newDirectory,
        .data 1024 ((smallFs.drop 8192).take 1024), .entry (some ⟨[2, 0, 0, 0, 12, 0, 1, 2, 46, 0, 0, 0]⟩),
        .data 1024 ((smallFs.drop 9216).take 1024), .data 452 ((smallFs.drop 10240).take 1024),
        .data 0 (zeros 1024), .noSuchHandle] := by
  have hsame : SameExcept (fun x => (!programBytes x) = true) smallFs c' := by
    refine ⟨by rw [hlen, smallFs_length], fun x hx => h x ?_⟩
    simpa using hx
  have hno : ∀ e, SessionOut.error e ∉ (sessionRun (blind fun x => !programBytes x)
      ((), [.device (InMemory.new smallFs 512)]) (program.take 11)) := by
    intro e
    rw [program_blind]
    simp
  have h1 := C110_hidden hsame 512 4096 (program.take 11)
    (fun x hx => program_wellTyped x (List.mem_of_mem_take hx)) hno
  rw [h1, program_blind]

end
end MdRecover
