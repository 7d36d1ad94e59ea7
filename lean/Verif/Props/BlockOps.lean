import Verif.Lemmas.BlockOps
import Verif.Props.Reader
import Verif.Props.ArrayRead

/-! C131: a reader is a byte stream and a block device at the same time. -/

namespace MdRecover
open MdSpec

/-- C131.  Start with one new reader over a device that is a disk `k` (which, if `F`, may fail at any call).  Any
sequence of operations of the byte stream and of block operations on any of the readers and their clones has outcomes
that `BlockRun` allows: block operations give what the disk has and move no cursor. -/
theorem C131_reader {W D : Type} {F : Prop} {dev : BlockDev W D} {G : W → Prop}
    {Is : D → Disk → Prop} (hd : DevSpec F dev G Is) {k : Disk} {d : D} (hk : Is d k)
    {w : W} (hG : G w) (ops : List BlockOp) (hops : ∀ op ∈ ops, op.wellTyped k) :
    ∃ ps, BlockRun F k [0] ops (runBlockOps dev ops w [Reader.new d]).2.2 ps := by
  have gen : ∀ (ops : List BlockOp), (∀ op ∈ ops, op.wellTyped k) → ∀ (w : W)
      (rs : List (Reader D)) (ps : List Nat), G w → AllAt Is k rs ps →
      ∃ ps', BlockRun F k ps ops (runBlockOps dev ops w rs).2.2 ps' := by
    intro ops
    induction ops with
    | nil => intro _ w rs ps _ _; exact ⟨ps, .nil⟩
    | cons op ops ih =>
      intro hops w rs ps hG hat
      obtain ⟨hG', ps', hat', hstep⟩ := runBlockOp_spec hd (hops op (by simp)) hG hat
      obtain ⟨ps'', hrun⟩ := ih (fun o ho => hops o (by simp [ho])) _ _ _ hG' hat'
      exact ⟨ps'', .cons hstep hrun⟩
  refine gen ops hops w _ _ hG ⟨rfl, fun i r p hr hp => ?_⟩
  have h0 : i = 0 := by
    have := (List.getElem?_eq_some_iff.mp hr).1
    simpa using this
  subst h0
  simp at hr hp
  subst hr; subst hp
  exact Reader.at_new (hd.wf hk) hk

/-- C131, readers of readers: a reader, wherever it stands, can be given to a new reader, with the same outcomes as
the device itself. -/
theorem C131_nested {W D : Type} {F : Prop} {dev : BlockDev W D} {G : W → Prop}
    {Is : D → Disk → Prop} (hd : DevSpec F dev G Is) {k : Disk} {r : Reader D} (hk : Is r.device k)
    {w : W} (hG : G w) (ops : List BlockOp) (hops : ∀ op ∈ ops, op.wellTyped k) :
    ∃ ps, BlockRun F k [0] ops (runBlockOps (Reader.streamDev dev).toBlockDev ops w [Reader.new r]).2.2 ps :=
  C131_reader (Reader.devSpec hd r.blockPos r.bytePos) ⟨hk, rfl, rfl⟩ hG ops hops

/-- C131, on an array (as in C16). -/
theorem C131_array {W D : Type} {F : Prop} {dev : BlockDev W D} {G : W → Prop}
    {Is : D → Disk → Prop} (hd : DevSpec F dev G Is) {ord : IterOrder} (hord : ord.Valid)
    {L n c size : Nat} {alg : Raid6Algorithm} {members : Nat → Disk} {content : Bytes}
    {devices : List (MdDevice D)} (hL : Raid6Algorithm.fromLayout L = some alg)
    (hr : ReadableSet Is alg n c size members devices) (hset : Raid6Set L n c size members content)
    {w : W} (hG : G w) (ops : List BlockOp) (hops : ∀ op ∈ ops, op.wellTyped ⟨512, size * (n - 2), content⟩) :
    ∃ ps, BlockRun F ⟨512, size * (n - 2), content⟩ [0] ops
      (runBlockOps (MdArray.dev dev) ops w [Reader.new (MdArray.open ord devices)]).2.2 ps :=
  C131_reader (C16_array_device_partial hd hord hL hr hset) ⟨rfl, rfl⟩ hG ops hops

/-- Reading exactly `buf.length` bytes of a file moves the position of its open file description by that. -/
theorem FileDev.readExactRaw_offset : ∀ (fuel : Nat) (buf : Bytes) (s : Kernel × FileDev) {s' : Kernel × FileDev}
    {a : Bytes}, buf.length ≤ fuel → readExactLoop FileDev.readRaw fuel buf s = (s', .ok a) →
    s'.2 = s.2 ∧ s'.1.offset s.2.ofd = s.1.offset s.2.ofd + buf.length
  | 0, buf, (K, d), s', a, hf, h => by
    have : buf = [] := List.eq_nil_of_length_eq_zero (by omega)
    subst this
    rw [readExactLoop] at h
    cases h
    exact ⟨rfl, rfl⟩
  | fuel + 1, buf, (K, d), s', a, hf, h => by
    rw [readExactLoop] at h
    by_cases hb : buf = []
    · subst hb
      rw [if_pos rfl] at h
      cases h
      exact ⟨rfl, rfl⟩
    rw [if_neg hb] at h
    rcases FileDev.readRaw_spec buf K d with ⟨c, K1, h1, -, -⟩ | ⟨j, K1, h1, hle, hsl, hoff, -, -⟩
    · rw [SM.bind_err (h := h1)] at h
      cases h
    rw [SM.bind_ok (h := h1)] at h
    simp only at h
    by_cases hj : j = 0
    · rw [if_pos hj] at h
      cases h
    rw [if_neg hj, if_neg (by rw [List.length_append, hsl]; omega)] at h
    have hdrop : (slice d.content (K.offset d.ofd) j ++ buf.drop j).drop j = buf.drop j := by
      rw [List.drop_append, hsl, List.drop_eq_nil_of_le (by omega)]; simp
    rw [hdrop] at h
    rcases hx : readExactLoop FileDev.readRaw fuel (buf.drop j) (K1, d) with ⟨s2, x⟩
    have hdl : (buf.drop j).length = buf.length - j := List.length_drop
    cases x with
    | ok b =>
      rw [SM.bind_ok (h := hx)] at h
      cases h
      obtain ⟨g1, g2⟩ := FileDev.readExactRaw_offset fuel _ (K1, d) (by omega) hx
      refine ⟨g1, ?_⟩
      rw [g2, hdl]
      simp only
      rw [hoff]
      omega
    | err e => rw [SM.bind_err (h := hx)] at h; cases h
    | panic => rw [SM.bind_panic (h := hx)] at h; cases h

/-- C131, without a reader: on the device for a file the two are not independent.  After a block was read, the
position of its byte stream, and that of all its clones (which share the open file), is behind that block, wherever it
was before. -/
theorem C131_file_moves (K : Kernel) (d d' : FileDev) (hd : d'.ofd = d.ofd) (hc : d'.content = d.content) (b : Nat)
    (buf : Bytes) {s' : Kernel × FileDev} {r : Nat × Bytes} (h : FileDev.streamDev.readBlock b buf (K, d) = (s', .ok r))
    (hb : b * d.blockSize + d.blockSize ≤ d.content.length) :
    (FileDev.streamDev.seek (.current 0) (s'.1, d')).2 = .ok (b * d.blockSize + d.blockSize) := by
  change FileDev.readBlock b buf (K, d) = _ at h
  have hoff : s'.1.offset d.ofd = b * d.blockSize + d.blockSize := by
    rw [FileDev.readBlock, SM.bind_ok (h := SM.get_apply _)] at h
    simp only at h
    split at h
    · cases h
    rename_i hbuf
    have htl : (buf.take d.blockSize).length = d.blockSize := by
      rw [List.length_take]; omega
    by_cases hfit : b * d.blockSize < U64
    · rw [SM.bind_ok (a := b * d.blockSize) (s' := (K, d))
        (h := by rw [bytePos, checkedMul64_pos hfit]; rfl)] at h
      have hseek : FileDev.seekRaw (.start (b * d.blockSize)) (K, d) =
          (({ K with offset := fun i => if i = d.ofd then b * d.blockSize else K.offset i }, d),
            .ok (b * d.blockSize)) := by
        simp only [FileDev.seekRaw]
        rw [if_neg (by omega)]
        simp only [Int.toNat_natCast]
      rw [SM.bind_ok (h := hseek)] at h
      rw [readExact] at h
      rcases hx : readExactLoop FileDev.readRaw (buf.take d.blockSize).length (buf.take d.blockSize)
        ({ K with offset := fun i => if i = d.ofd then b * d.blockSize else K.offset i }, d) with ⟨s2, x⟩
      cases x with
      | ok y =>
        rw [SM.bind_ok (h := hx)] at h
        cases h
        obtain ⟨-, g⟩ := FileDev.readExactRaw_offset _ _ _ (Nat.le_refl _) hx
        simpa [htl] using g
      | err e => rw [SM.bind_err (h := hx)] at h; cases h
      | panic => rw [SM.bind_panic (h := hx)] at h; cases h
    · rw [SM.bind_err (e := .invalidData) (s' := (K, d))
        (h := by rw [bytePos, checkedMul64_neg (by omega)]; rfl)] at h
      cases h
  show (FileDev.seekRaw (.current 0) (s'.1, d')).2 = _
  simp only [FileDev.seekRaw, hd, hc, hoff]
  rw [if_neg (by omega), Int.add_zero, Int.toNat_natCast]

/-! ## Cases -/

/-- C131: five bytes in blocks of two; the block with 3, 4 is read between two reads of the stream, which give 1 and
2. -/
example : (runBlockOps InMemory.dev [.stream (.read 0 [0]), .readBlock 0 1 [0, 0], .blockCount 0, .stream (.clone 0),
    .readBlock 1 0 [9, 9], .stream (.read 0 [0]), .stream (.read 1 [0]), .blockSize 1] ()
    [Reader.new (InMemory.new [1, 2, 3, 4, 5] 2)]).2.2 =
    [.stream (.data 1 [1]), .stream (.data 2 [3, 4]), .number 2, .stream .cloned, .stream (.data 2 [1, 2]),
      .stream (.data 1 [2]), .stream (.data 1 [2]), .number 2] := by
  rfl

example := C131_reader InMemory.devSpec (k := ⟨2, 2, [1, 2, 3, 4]⟩) (d := InMemory.new [1, 2, 3, 4, 5] 2)
  ⟨by decide, by decide, by decide, rfl⟩ (w := ()) trivial
  [.stream (.read 0 [0]), .readBlock 0 1 [0, 0], .stream (.read 0 [0])] (by
    intro op h; simp at h; rcases h with rfl | rfl | rfl <;> simp [ReaderOp.wellTyped, BlockOp.wellTyped])

/-- C131, a file: its first block is read while its stream stands at 5; then a clone stands at 2. -/
example := C131_file_moves ⟨fun _ => 5, [.upTo 0], fun _ => 0⟩ ⟨7, [1, 2, 3, 4, 5], 2⟩ ⟨7, [1, 2, 3, 4, 5], 4⟩ rfl rfl 0
  [0, 0] (r := (2, [1, 2])) (Prod.ext rfl (by decide +kernel)) (by decide)

end MdRecover
