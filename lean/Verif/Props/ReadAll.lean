import Verif.Lemmas.SeekableVolume
import Verif.Model.ReadAll
import Verif.Props.Devices
import Verif.Props.Reader

/-! C81: reading everything; concrete cases for C44-C47. -/

namespace MdRecover
open MdSpec
variable {W D : Type}

theorem readToEnd_spec {F : Prop} {dev : StreamDev W D} {G : W → Prop} {Is : D → Bytes → Prop}
    {At : W → D → Nat → Prop} (hd : VolumeSpec F dev G Is At) {c : Bytes} (sizes : Nat → Nat)
    (hs : ∀ i, 0 < sizes i) : ∀ (fuel i p : Nat) (acc : Bytes) {w : W} {d : D}, G w → Is d c →
      At w d p → c.length - p < fuel →
      ∃ w' d', G w' ∧ Is d' c ∧
        ((F ∧ ∃ e, readToEnd dev.read sizes fuel i acc (w, d) = ((w', d'), .err e)) ∨
         (∃ q, readToEnd dev.read sizes fuel i acc (w, d) = ((w', d'), .ok (some (acc ++ c.drop p))) ∧
            At w' d' q ∧ c.length ≤ q)) := by
  intro fuel
  induction fuel with
  | zero =>
    intro i p acc w d hG hI hA hf
    omega
  | succ fuel ih =>
    intro i p acc w d hG hI hA hf
    rcases hr : dev.read (zeros (sizes i)) (w, d) with ⟨⟨w', d'⟩, r⟩
    obtain ⟨hG', hI', h⟩ := hd.read hG hI hA _ hr
    rw [readToEnd]
    rcases h with ⟨j, buf', p', rfl, hsr, hA'⟩ | ⟨hF, e, rfl⟩
    · rw [SM.bind_ok (h := hr)]
      by_cases hj : j = 0
      · subst hj
        have hend : c.length ≤ p := by
          rcases hsr.zero rfl with h | h
          · have := congrArg List.length h
            simp [zeros] at this
            have := hs i
            omega
          · exact h
        refine ⟨w', d', hG', hI', .inr ⟨p', ?_, hA', by have := hsr.moved; omega⟩⟩
        simp [List.drop_eq_nil_of_le hend]
      · have hin := hsr.inside (by omega)
        have hlen : ((c.drop p).take j).length = j := by
          rw [List.length_take, List.length_drop]; omega
        have hbl : ¬ buf'.length < j := by
          rw [hsr.data, List.length_append, hlen]; omega
        have htake : buf'.take j = (c.drop p).take j := by
          rw [hsr.data, List.take_append_of_le_length (by omega), List.take_of_length_le (by omega)]
        simp only [if_neg hj, if_neg hbl]
        obtain ⟨w2, d2, hG2, hI2, h2⟩ := ih (i + 1) p' (acc ++ buf'.take j) hG' hI' hA'
          (by have := hsr.moved; omega)
        refine ⟨w2, d2, hG2, hI2, ?_⟩
        rcases h2 with h2 | ⟨q, h2, hq⟩
        · exact .inl h2
        · refine .inr ⟨q, ?_, hq⟩
          rw [h2, htake, hsr.moved, List.append_assoc, ← List.drop_drop, List.take_append_drop]
    · rw [SM.bind_err (h := hr)]
      exact ⟨w', d', hG', hI', .inl ⟨hF, e, rfl⟩⟩

/-- C81.  A device, reader or file with content `c`, at position `p`: reading everything returns the bytes from `p` on,
and all of them, however long the pieces are in which it reads, and leaves the position at (or behind) the end;
or, only if the device may fail, an error.  It ends after at most `c.length - p + 1` reads. -/
theorem C81_read_all {F : Prop} {dev : StreamDev W D} {G : W → Prop} {Is : D → Bytes → Prop}
    {At : W → D → Nat → Prop} (hd : VolumeSpec F dev G Is At) {c : Bytes} {w : W} {d : D} (hG : G w)
    (hI : Is d c) {p : Nat} (hp : At w d p) (sizes : Nat → Nat) (hs : ∀ i, 0 < sizes i) {fuel : Nat}
    (hf : c.length - p < fuel) :
    (∃ w' d' q, readAll dev.read sizes fuel (w, d) = ((w', d'), .ok (some (c.drop p))) ∧
        At w' d' q ∧ c.length ≤ q) ∨
      (F ∧ ∃ e, (readAll dev.read sizes fuel (w, d)).2 = .err e) := by
  obtain ⟨w', d', -, -, h⟩ := readToEnd_spec hd sizes hs fuel 0 p [] hG hI hp hf
  rcases h with ⟨hF, e, h⟩ | ⟨q, h, hq⟩
  · exact .inr ⟨hF, e, congrArg Prod.snd h⟩
  · exact .inl ⟨w', d', q, h, hq⟩

/-- C81 for a reader over any block device that does not fail: seek to `p`, then read everything. -/
theorem C81_reader {dev : BlockDev W D} {G : W → Prop} {Is : D → Disk → Prop}
    (hd : DevSpec False dev G Is) {k : Disk} {d : D} (hk : Is d k) {w : W} (hG : G w) (p : Nat)
    (hp : p < U64) (sizes : Nat → Nat) (hs : ∀ i, 0 < sizes i) {fuel : Nat}
    (hf : k.content.length - p < fuel) :
    ((do let _ ← Reader.seek dev (.start p); readAll (Reader.read dev) sizes fuel)
      (w, Reader.new d)).2 = .ok (some (k.content.drop p)) := by
  obtain ⟨w1, r1, hG1, h⟩ := Reader.seek_spec hd hG (Reader.at_new (hd.wf hk) hk) (.start p)
    (fun q hq => by cases hq; exact hp)
  rcases h with ⟨hF, _⟩ | ⟨hbad, _⟩ | ⟨q, hq, hql, h, hr1⟩
  · exact hF.elim
  · exact absurd ⟨by simp [seekGoal], by simp only [seekGoal]; omega⟩ hbad
  have hpq : p = q := by simp only [seekGoal] at hq; omega
  subst hpq
  rw [SM.bind_ok (h := h)]
  rcases C81_read_all (Reader.volumeSpec hd k) hG1 ⟨rfl, _, hr1⟩ hr1 sizes hs hf with
    ⟨w', d', q, h, -⟩ | ⟨hF, -⟩
  · exact congrArg Prod.snd h
  · exact hF.elim

/-- C47: the error of the device is the error of the read, and the position is kept, whatever the device is. -/
theorem C47_error_passed_on (dev : BlockDev W D) (w : W) (r : Reader D) (buf : Bytes) {n bs : Nat}
    {w₁ w₂ w₃ : W} {d₃ : D} {e : ErrKind} (h1 : dev.blockCount r.device w = (w₁, .ok n))
    (hn : r.blockPos < n) (h2 : dev.blockSize r.device w₁ = (w₂, .ok bs))
    (h3 : dev.readBlock r.blockPos (zeros bs) (w₂, r.device) = ((w₃, d₃), .err e)) :
    Reader.read dev buf (w, r) = ((w₃, { r with device := d₃ }), .err e) := by
  have e1 : Reader.onWorld dev.blockCount (w, r) = ((w₁, r), .ok n) := by
    simp only [Reader.onWorld, h1]
  have e2 : Reader.onWorld dev.blockSize (w₁, r) = ((w₂, r), .ok bs) := by
    simp only [Reader.onWorld, h2]
  have e3 : Reader.onDevice (dev.readBlock r.blockPos (zeros bs)) (w₂, r) =
      ((w₃, { r with device := d₃ }), .err e) := by
    simp only [Reader.onDevice, SM.zoom, h3]
  unfold Reader.read
  rw [SM.bind_ok (h := SM.get_apply _)]
  simp only
  rw [SM.bind_ok (h := e1), if_neg (by omega), SM.bind_ok (h := e2), SM.bind_err (h := e3)]

/-! Concrete cases. -/

/-- Seven bytes in blocks of two: the disk has three blocks, the last byte is not part of it. -/
def sevenBytes : InMemory := InMemory.new [1, 2, 3, 4, 5, 6, 7] 2

theorem sevenBytes_isDisk : InMemory.IsDisk sevenBytes ⟨2, 3, [1, 2, 3, 4, 5, 6]⟩ :=
  ⟨by decide, by decide, by decide, rfl⟩

/-- C44, C46: reads at a block's end, across a clone, past the end, and a rejected seek. -/
example : (runReaderOps InMemory.dev
      [.seek 0 (.start 3), .read 0 [0, 0, 9], .clone 0, .read 1 [0, 0], .read 0 [0],
       .seek 0 (.fromEnd (-7)), .seek 0 (.current 100), .read 0 [0]] ()
      [Reader.new sevenBytes]).2.2 =
    [.position 3, .data 1 [4, 0, 9], .cloned, .data 2 [5, 6], .data 1 [5], .error .invalidInput,
     .position 105, .data 0 [0]] := by rfl

example (ops : List ReaderOp) (hops : ∀ op ∈ ops, op.wellTyped) :
    ∃ ps, StreamRun False [1, 2, 3, 4, 5, 6] [0] ops
      (runReaderOps InMemory.dev ops () [Reader.new sevenBytes]).2.2 ps :=
  C44_reader_is_stream InMemory.devSpec sevenBytes_isDisk trivial ops hops

/-- C45. -/
example : ((do let _ ← Reader.seek InMemory.dev (.start 1); readExact (Reader.read InMemory.dev) [0, 0, 0, 0])
      ((), Reader.new sevenBytes)).2 = .ok [2, 3, 4, 5] ∧
    ((do let _ ← Reader.seek InMemory.dev (.start 3); readExact (Reader.read InMemory.dev) [0, 0, 0, 0])
      ((), Reader.new sevenBytes)).2 = .err .unexpectedEof :=
  ⟨C45_seek_read_exact InMemory.devSpec
      (Reader.at_new (InMemory.devSpec.wf sevenBytes_isDisk) sevenBytes_isDisk) trivial 1 (by decide)
      [0, 0, 0, 0],
    C45_seek_read_exact InMemory.devSpec
      (Reader.at_new (InMemory.devSpec.wf sevenBytes_isDisk) sevenBytes_isDisk) trivial 3 (by decide)
      [0, 0, 0, 0]⟩

/-- C47: a file whose second `read` call fails; the retry gives the bytes. -/
example : (runReaderOps FileDev.dev
      (.seek 0 (.start 3) :: ([[0]].map (ReaderOp.read 0) ++ [.read 0 [0, 0]]))
      ⟨fun _ => 0, [.fail 5], fun _ => 0⟩ [Reader.new ⟨7, [1, 2, 3, 4, 5, 6], 2⟩]).2.2 =
    .position 3 :: ([ErrKind.os 5].map ReaderOut.error ++ [.data 1 [4, 0]]) := by rfl

/-- C81: in pieces of one and of several bytes. -/
example : ((do let _ ← Reader.seek InMemory.dev (.start 1)
               readAll (Reader.read InMemory.dev) (fun i => i % 3 + 1) 20)
      ((), Reader.new sevenBytes)).2 =
    .ok (some [2, 3, 4, 5, 6]) :=
  C81_reader InMemory.devSpec sevenBytes_isDisk trivial 1 (by decide) _ (by intro i; omega)
    (by decide)

end MdRecover
