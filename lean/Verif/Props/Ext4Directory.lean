import Verif.Lemmas.Ext4DirectoryFollow
import Verif.Props.Ext4File

/- Directories: C69-C72.

`DirBlock.fromBlock B seed` opens the bytes `B` of a directory block, with a checksum if there is a
seed; `blockCalls n` makes `n` calls of `read_next_entry` on it.  `Ext4Directory.open fs inode = .ok d`
opens a directory; `EntryReturns` and `DirCalls` (Spec/Ext4Directory) describe a call and a sequence of
calls of `read_next_entry` on it.  Records, their tiling of a block and the checksum of a block are
described in Spec/Ext4Directory, without reference to the model. -/

namespace MdRecover
open MdSpec
variable [Build]

omit [Build] in
theorem le_slot (a m b : Bytes) : le (a ++ (m ++ b)) a.length m.length = leNat m := by
  unfold le
  rw [List.drop_left, List.take_left]

omit [Build] in
theorem _root_.MdSpec.NewEntry.encode_length (e : NewEntry) :
    e.encode.length = 8 + e.name.length + e.unused.length := by
  simp [NewEntry.encode, leBytes_length]; omega

omit [Build] in
theorem _root_.MdSpec.NewEntry.encode_values (e : NewEntry) (h : e.Fits) :
    le e.encode 0 4 = e.inode ∧ le e.encode 4 2 = 8 + e.name.length + e.unused.length ∧
      le e.encode 6 1 = e.name.length ∧ le e.encode 7 1 = e.fileType ∧
      e.encode.drop 8 = e.name ++ e.unused := by
  obtain ⟨h1, h2, h3, h4⟩ := h
  refine ⟨?_, ?_, ?_, ?_, ?_⟩
  · have := le_slot [] (leBytes 4 e.inode) (leBytes 2 (8 + e.name.length + e.unused.length) ++ leBytes 1 e.name.length
      ++ leBytes 1 e.fileType ++ e.name ++ e.unused)
    rw [leNat_leBytes (by omega), leBytes_length] at this
    simpa [NewEntry.encode] using this
  · have := le_slot (leBytes 4 e.inode) (leBytes 2 (8 + e.name.length + e.unused.length))
      (leBytes 1 e.name.length ++ leBytes 1 e.fileType ++ e.name ++ e.unused)
    rw [leNat_leBytes (by omega), leBytes_length, leBytes_length] at this
    simpa [NewEntry.encode] using this
  · have := le_slot (leBytes 4 e.inode ++ leBytes 2 (8 + e.name.length + e.unused.length))
      (leBytes 1 e.name.length) (leBytes 1 e.fileType ++ e.name ++ e.unused)
    rw [leNat_leBytes (by omega), List.length_append, leBytes_length, leBytes_length,
      leBytes_length] at this
    simpa [NewEntry.encode] using this
  · have := le_slot (leBytes 4 e.inode ++ leBytes 2 (8 + e.name.length + e.unused.length)
      ++ leBytes 1 e.name.length) (leBytes 1 e.fileType) (e.name ++ e.unused)
    rw [leNat_leBytes (by omega), List.length_append, List.length_append, leBytes_length,
      leBytes_length, leBytes_length, leBytes_length] at this
    simpa [NewEntry.encode] using this
  · have : e.encode = (leBytes 4 e.inode ++ leBytes 2 (8 + e.name.length + e.unused.length)
      ++ leBytes 1 e.name.length ++ leBytes 1 e.fileType) ++ (e.name ++ e.unused) := by
      simp [NewEntry.encode]
    rw [this, List.drop_left' (by simp [leBytes_length])]

omit [Build] in
theorem _root_.MdSpec.NewEntry.isRecord (e : NewEntry) (h : e.Fits) : IsRecord e.encode := by
  obtain ⟨-, h1, h2, -, -⟩ := e.encode_values h
  exact ⟨by rw [e.encode_length]; omega, by rw [h1, e.encode_length],
    by rw [h2, e.encode_length]; omega⟩

omit [Build] in
theorem tiles_encode (es : List NewEntry) (h : ∀ e ∈ es, e.Fits) (k : Nat) :
    Tiles (es.flatMap NewEntry.encode ++ zeros k) (es.map NewEntry.encode) := by
  induction es with
  | nil =>
    refine tiles_nil fun n hn => ?_
    obtain ⟨h1, h2, -⟩ := hn
    have hz : le (([].flatMap NewEntry.encode ++ zeros k).take n) 4 2 = 0 := by
      show leNat ((((zeros k).take n).drop 4).take 2) = 0
      unfold zeros
      rw [List.take_replicate, List.drop_replicate, List.take_replicate]
      have := leNat_append_zeros [] (min 2 (min n k - 4))
      simpa [leNat] using this
    omega
  | cons e es ih =>
    rw [List.flatMap_cons, List.append_assoc, List.map_cons]
    exact tiles_cons (e.isRecord (h e List.mem_cons_self))
      (ih fun x hx => h x (List.mem_cons_of_mem _ hx))

omit [Build] in
/-- C69: the calls on an opened block return the records stored back to back from its start, of which
there are at most one for every 8 bytes, and then always `None`. -/
theorem C69_tiles (B : Bytes) (seed : Option Nat) (b : DirBlock)
    (h : DirBlock.fromBlock B seed = .ok (some b)) :
    ∃ es : List Bytes, Tiles (B.take (recordsEnd seed B)) es ∧ es.length ≤ B.length / 8 ∧
      ∀ n, blockCalls n b = .ok ((List.range n).map fun k => es[k]?.map DirEntry.mk) := by
  have hb : b = ⟨B, 0, recordsEnd seed B⟩ := by
    cases seed with
    | none => cases h; rfl
    | some s =>
      by_cases hl : 12 ≤ B.length
      · by_cases hs : BlockSound (some s) B
        · rw [DirBlock.fromBlock_sound hl hs] at h
          cases h; rfl
        · rw [DirBlock.fromBlock_unsound hl hs] at h
          cases h
      · have : DirBlock.fromBlock B (some s) = .panic := by
          show (subP B.length dirTailLayout.size >>= _) = _
          unfold subP
          rw [dirTail_size, if_neg hl]
          rfl
        rw [this] at h; cases h
  subst hb
  obtain ⟨es, hes⟩ := tiles_exists (B.take (recordsEnd seed B))
  refine ⟨es, hes, ?_, DirBlock.blockCalls_eq (DirBlock.opened_ok seed B) hes⟩
  have h1 := tiles_length hes
  rw [List.length_take] at h1
  omega

omit [Build] in
/-- C69: there is one way to divide bytes into records, so `C69_tiles` fixes what is returned. -/
theorem C69_one_tiling (u : Bytes) (es es' : List Bytes) (h : Tiles u es) (h' : Tiles u es') :
    es = es' := tiles_unique h h'

omit [Build] in
/-- C69: which blocks are opened: all, without checksums; with checksums the sound ones, if they have
room for the checksum. -/
theorem C69_opens (B : Bytes) (seed : Option Nat) (hb : 12 ≤ B.length) :
    (BlockSound seed B → ∃ b, DirBlock.fromBlock B seed = .ok (some b)) ∧
      (¬ BlockSound seed B → DirBlock.fromBlock B seed = .ok none) :=
  ⟨fun h => ⟨_, DirBlock.fromBlock_sound hb h⟩, DirBlock.fromBlock_unsound hb⟩

omit [Build] in
/-- C69: reading back a block written from any list of entries (then zeros, then the checksum if there
is one) returns these entries in their order, with the same inode, type and name, and then `None`.
The unused bytes of an entry must begin with a zero, see C70. -/
theorem C69_round_trip (es : List NewEntry) (hf : ∀ e ∈ es, e.Fits)
    (hn : ∀ e ∈ es, 0 ∉ e.name ∧ (e.unused = [] ∨ e.unused[0]? = some 0)) (k : Nat)
    (seed : Option Nat) (tail : Bytes)
    (htail : (seed = none ∧ tail = []) ∨ ∃ s checksum, seed = some s ∧ checksum < 2 ^ 32 ∧
      IsCrc32c (BitVec.ofNat 32 s) (es.flatMap NewEntry.encode ++ zeros k)
        (BitVec.ofNat 32 checksum) ∧ tail = encodeTail checksum) :
    ∃ b, DirBlock.fromBlock (es.flatMap NewEntry.encode ++ zeros k ++ tail) seed = .ok (some b) ∧
      ∀ n, ∃ rs, blockCalls n b = .ok rs ∧ rs.length = n ∧ ∀ i, i < n →
        (∀ e, es[i]? = some e → ∃ d, rs[i]? = some (some d) ∧ d.inode = e.inode ∧
          d.fileType = .ofNat e.fileType ∧ d.name = ⟨e.name⟩) ∧
        (es[i]? = none → rs[i]? = some none) := by
  obtain ⟨U, hU⟩ : ∃ U, es.flatMap NewEntry.encode ++ zeros k = U := ⟨_, rfl⟩
  have ht := tiles_encode es hf k
  rw [hU] at ht htail ⊢
  have hopen : DirBlock.fromBlock (U ++ tail) seed
      = .ok (some ⟨U ++ tail, 0, recordsEnd seed (U ++ tail)⟩) ∧
      (U ++ tail).take (recordsEnd seed (U ++ tail)) = U := by
    rcases htail with ⟨rfl, rfl⟩ | ⟨s, cs, rfl, hcs, hcrc, rfl⟩
    · exact ⟨rfl, by rw [List.append_nil]; exact List.take_length⟩
    · have hl : (encodeTail cs).length = 12 := by simp [encodeTail, leBytes_length]
      have hll : (U ++ encodeTail cs).length = U.length + 12 := by rw [List.length_append, hl]
      have htk : (U ++ encodeTail cs).take (U.length + 12 - 12) = U := by
        rw [Nat.add_sub_cancel]; exact List.take_left
      refine ⟨DirBlock.fromBlock_sound (by omega) ?_, ?_⟩
      · intro s' hs'
        cases hs'
        rw [hll, htk]
        have hat : ∀ off w, le (U ++ encodeTail cs) (U.length + off) w = le (encodeTail cs) off w := by
          intro off w
          rw [← le_drop, List.drop_left]
        rw [show U.length + 12 - 12 = U.length + 0 by omega,
          show U.length + 12 - 8 = U.length + 4 by omega,
          show U.length + 12 - 6 = U.length + 6 by omega,
          show U.length + 12 - 5 = U.length + 7 by omega,
          show U.length + 12 - 4 = U.length + 8 by omega, hat, hat, hat, hat, hat]
        have h8 : le (encodeTail cs) 8 4 = cs := by
          have := le_slot (leBytes 4 0 ++ leBytes 2 12 ++ leBytes 1 0 ++ leBytes 1 0xde)
            (leBytes 4 cs) []
          rw [leNat_leBytes (by omega), leBytes_length] at this
          simpa [encodeTail, leBytes_length] using this
        refine ⟨by omega, rfl, rfl, rfl, rfl, ?_⟩
        rw [h8]; exact hcrc
      · show (U ++ encodeTail cs).take ((U ++ encodeTail cs).length - 12) = U
        rw [hll, htk]
  obtain ⟨h1, h2⟩ := hopen
  refine ⟨_, h1, fun n => ⟨_, DirBlock.blockCalls_eq (DirBlock.opened_ok seed _)
    (by rw [DirBlock.opened_rest, h2]; exact ht) n, by simp, fun i hi => ⟨fun e he => ?_, fun he => ?_⟩⟩⟩
  · have hmem := List.mem_of_getElem? he
    obtain ⟨v1, -, v3, v4, v5⟩ := e.encode_values (hf e hmem)
    refine ⟨⟨e.encode⟩, ?_, ?_, ?_, ?_⟩
    · simp [List.getElem?_range hi, he]
    · exact (dirEntry_at (f := .inode) (off := 0) (w := 4) (by decide +kernel) _).trans v1
    · show DirFileType.ofNat _ = _
      rw [dirEntry_at (f := .fileType) (off := 7) (w := 1) (by decide +kernel), v4]
    · show Ext4String.fromNullTerminated (e.encode.drop (dirEntryLayout.offset .name)) = _
      rw [dirName_offset, v5]
      obtain ⟨n1, n2⟩ := hn e hmem
      unfold Ext4String.fromNullTerminated
      congr 1
      rw [List.takeWhile_append_of_pos]
      · rcases n2 with n2 | n2
        · rw [n2]; simp
        · cases hu : e.unused with
          | nil => simp
          | cons x t =>
            rw [hu] at n2
            have : x = 0 := by simpa using n2
            subst this
            simp
      · intro x hx
        simp only [bne_iff_ne, ne_eq]
        rintro rfl
        exact n1 hx
  · simp [List.getElem?_range hi, he]

omit [Build] in
theorem takeWhile_take (l : Bytes) (n : Nat) (hn : n ≤ l.length) :
    l.takeWhile (· != 0) = l.take n ↔ 0 ∉ l.take n ∧ (n = l.length ∨ l[n]? = some 0) := by
  induction n generalizing l with
  | zero =>
    cases l with
    | nil => simp
    | cons x t =>
      by_cases hx : x = 0
      · subst hx; simp
      · have : (x != 0) = true := by simpa using hx
        simp [this, hx]
  | succ n ih =>
    cases l with
    | nil => simp at hn
    | cons x t =>
      by_cases hx : x = 0
      · subst hx; simp
      · have : (x != 0) = true := by simpa using hx
        have hn : n ≤ t.length := by simpa using hn
        have := ih t hn
        simp [hx, this, Ne.symm hx]

omit [Build] in
/-- C70 in part: the name of a returned entry is its first `name_length` name bytes exactly if these
contain no zero byte, and a zero byte or the end of the record follows.  Missing: records in which
other bytes follow the name (`C70_stale_bytes`), as the format allows. -/
theorem C70_name_partial (e : DirEntry) (h : IsRecord e.storage) :
    e.name.bytes = (e.storage.drop 8).take (le e.storage 6 1) ↔
      0 ∉ (e.storage.drop 8).take (le e.storage 6 1) ∧
        (8 + le e.storage 6 1 = e.storage.length ∨ e.storage[8 + le e.storage 6 1]? = some 0) := by
  obtain ⟨h1, -, h3⟩ := h
  have hl : (e.storage.drop 8).length = e.storage.length - 8 := List.length_drop
  have : e.name.bytes = (e.storage.drop 8).takeWhile (· != 0) := by
    show (e.storage.drop (dirEntryLayout.offset .name)).takeWhile _ = _
    rw [dirName_offset]
  rw [this, takeWhile_take _ _ (by omega), hl, List.getElem?_drop]
  constructor
  · rintro ⟨h4, h5 | h5⟩
    · exact ⟨h4, .inl (by omega)⟩
    · exact ⟨h4, .inr h5⟩
  · rintro ⟨h4, h5 | h5⟩
    · exact ⟨h4, .inl (by omega)⟩
    · exact ⟨h4, .inr h5⟩

omit [Build] in
/-- C70 is false as stated: if a byte other than zero follows the name in the record, it becomes part
of the name. -/
theorem C70_stale_bytes (e : DirEntry) (h : IsRecord e.storage)
    (hn : 0 ∉ (e.storage.drop 8).take (le e.storage 6 1)) (x : UInt8)
    (hx : e.storage[8 + le e.storage 6 1]? = some x) (h0 : x ≠ 0) :
    (e.storage.drop 8).take (le e.storage 6 1 + 1) <+: e.name.bytes ∧
      le e.storage 6 1 < e.name.len := by
  obtain ⟨h1, -, h3⟩ := h
  have hlt : 8 + le e.storage 6 1 < e.storage.length := (List.getElem?_eq_some_iff.1 hx).1
  have hpre : (e.storage.drop 8).take (le e.storage 6 1 + 1) <+: e.name.bytes := by
    show _ <+: (e.storage.drop (dirEntryLayout.offset .name)).takeWhile _
    rw [dirName_offset]
    have hsplit := List.take_append_drop (le e.storage 6 1 + 1) (e.storage.drop 8)
    rw [← hsplit, List.takeWhile_append_of_pos, hsplit]
    · exact List.prefix_append _ _
    · intro y hy
      rw [List.take_add_one, List.mem_append, List.getElem?_drop, hx] at hy
      simp only [bne_iff_ne, ne_eq]
      rintro rfl
      rcases hy with hy | hy
      · exact hn hy
      · simp only [Option.toList_some, List.mem_singleton] at hy
        exact h0 hy.symm
  refine ⟨hpre, ?_⟩
  have := hpre.length_le
  rw [List.length_take, List.length_drop] at this
  unfold Ext4String.len
  omega

section
variable {W D : Type} {F : Prop} {dev : StreamDev W D} {G : W → Prop} {Is : D → Bytes → Prop}
  {At : W → D → Nat → Prop}

/-- C71: whatever was called before and whatever failed, a returned entry is one of the records of a
sound block, which an extent of the directory maps.  With checksums, sound means that the checksum of
the block is right (`BlockSound`). -/
theorem C71_checked (hv : VolumeSpec F dev G Is At) (c : Bytes) (hc : c.length < U64) (w : W)
    (hG : G w) (fs : Ext4Fs D) (ho : Opened Is c fs) (inode : Inode) (d : Ext4Directory D)
    (hd : Ext4Directory.open fs inode = .ok d) (hw : BlocksCounted c inode.fileSizeBytes)
    (h : List (Res (Option DirEntry))) (s s' : W × Ext4Directory D) (hcalls : DirCalls dev (w, d) h s) (e : DirEntry)
    (hret : EntryReturns dev s s' (.ok (some e))) :
    ∃ p x es, ExtentMap c (blockSizeOf (sbOf c)) inode.blocksBuffer p x ∧
      BlockInside c (blockSizeOf (sbOf c)) x ∧
      BlockSound inode.metadataChecksumSeed (blockOf c (blockSizeOf (sbOf c)) x) ∧
      Tiles ((blockOf c (blockSizeOf (sbOf c)) x).take
        (recordsEnd inode.metadataChecksumSeed (blockOf c (blockSizeOf (sbOf c)) x))) es ∧
      e.storage ∈ es := by
  have hP := closed_map c (blockSizeOf (sbOf c)) inode.blocksBuffer
  obtain ⟨hi, -⟩ := Ext4Directory.open_inv (w := w) hG ho hd
    (fun b => ∀ p x, ExtentMap c (blockSizeOf (sbOf c)) b p x →
      ExtentMap c (blockSizeOf (sbOf c)) inode.blocksBuffer p x) (fun _ _ h => h) hw
  have hi1 := Ext4Directory.dirCalls_inv hv hc hP hcalls hi
  obtain ⟨-, h1⟩ := Ext4Directory.entryReturns_inv hv hc hP hret hi1 (fun h => (by cases h))
  obtain ⟨b, es, ⟨h2, p, x, ⟨node, k, j, g1, g2, g3, g4, g5, g6, rfl⟩, h4, rfl⟩, h5, h6⟩ := h1 e rfl
  refine ⟨p, _, es, g1 _ _ ?_, h4, h2, h5, h6⟩
  rw [← g5]
  exact .extent node k j g2 g3 g4 (Nat.lt_of_lt_of_le g6 (Extent.length_le _))

omit [Build] in
/-- C71: any change of up to four consecutive bytes of a sound block is detected: the changed block is
not sound. -/
theorem C71_corruption (s : Nat) (front w v rest : Bytes) (hw : w.length ≤ 4)
    (hl : w.length = v.length) (hne : w ≠ v) (h : BlockSound (some s) (front ++ w ++ rest)) :
    ¬ BlockSound (some s) (front ++ v ++ rest) := by
  intro h'
  obtain ⟨a1, a2, a3, a4, a5, a6⟩ := h s rfl
  obtain ⟨-, b2, b3, b4, b5, b6⟩ := h' s rfl
  obtain ⟨L, hL⟩ : ∃ L, (front ++ w ++ rest).length = L := ⟨_, rfl⟩
  have hL' : (front ++ v ++ rest).length = L := by
    rw [← hL]; simp [hl]
  have hLs : front.length + w.length + rest.length = L := by
    rw [← hL, List.length_append, List.length_append]
  rw [hL] at a1 a2 a3 a4 a5 a6
  rw [hL'] at b2 b3 b4 b5 b6
  rw [← C52_polynomial_division] at a6 b6
  have hofNat : ∀ x y : Nat, x < 2 ^ 32 → y < 2 ^ 32 → BitVec.ofNat 32 x = BitVec.ofNat 32 y →
      x = y := by
    intro x y hx hy h
    have := congrArg BitVec.toNat h
    rwa [BitVec.toNat_ofNat, BitVec.toNat_ofNat, Nat.mod_eq_of_lt hx, Nat.mod_eq_of_lt hy] at this
  have hfield : ∀ off n, off + n ≤ L → le (front ++ w ++ rest) off n = le (front ++ v ++ rest) off n →
      ((front ++ w ++ rest).drop off).take n = ((front ++ v ++ rest).drop off).take n := by
    intro off n _ h
    refine leNat_inj ?_ h
    rw [List.length_take, List.length_take, List.length_drop, List.length_drop, hL, hL']
  by_cases hU : (front ++ w ++ rest).take (L - 12) = (front ++ v ++ rest).take (L - 12)
  · rw [hU] at a6
    have hcs := hofNat _ _ (le_lt _ _ 4) (le_lt _ _ 4) (a6.symm.trans b6)
    have f1 := hfield (L - 12) 4 (by omega) (a2.trans b2.symm)
    have f2 := hfield (L - 8) 2 (by omega) (a3.trans b3.symm)
    have f3 := hfield (L - 6) 1 (by omega) (a4.trans b4.symm)
    have f4 := hfield (L - 5) 1 (by omega) (a5.trans b5.symm)
    have f5 := hfield (L - 4) 4 (by omega) hcs
    have hsplit : ∀ b : Bytes, b.length = L → b = b.take (L - 12) ++ ((b.drop (L - 12)).take 4 ++
        ((b.drop (L - 8)).take 2 ++ ((b.drop (L - 6)).take 1 ++ ((b.drop (L - 5)).take 1 ++
          (b.drop (L - 4)).take 4)))) := by
      intro b hb
      have h4 : (b.drop (L - 4)).take 4 = b.drop (L - 4) :=
        List.take_of_length_le (by rw [List.length_drop]; omega)
      have hstep : ∀ a n m, a + n = m → (b.drop a).take n ++ b.drop m = b.drop a := by
        rintro a n m rfl
        rw [← List.drop_drop, List.take_append_drop]
      rw [h4, hstep (L - 5) 1 (L - 4) (by omega), hstep (L - 6) 1 (L - 5) (by omega),
        hstep (L - 8) 2 (L - 6) (by omega), hstep (L - 12) 4 (L - 8) (by omega),
        List.take_append_drop]
    have heq : front ++ w ++ rest = front ++ v ++ rest := by
      rw [hsplit _ hL, hsplit _ hL', hU, f1, f2, f3, f4, f5]
    rw [List.append_assoc, List.append_assoc] at heq
    exact hne (List.append_inj (List.append_cancel_left heq) hl).1
  · have hfl : front.length < L - 12 := by
      refine Decidable.byContradiction fun hge => hU ?_
      rw [List.append_assoc, List.append_assoc, List.take_append_of_le_length (by omega),
        List.take_append_of_le_length (by omega)]
    have hdrop : ∀ z : Bytes, z.length = w.length →
        (front ++ z ++ rest).drop (L - 4) = rest.drop (L - 4 - (front.length + w.length)) := by
      intro z hz
      rw [List.drop_append, List.drop_eq_nil_of_le (by rw [List.length_append]; omega),
        List.nil_append, List.length_append, hz]
    have hcs : le (front ++ w ++ rest) (L - 4) 4 = le (front ++ v ++ rest) (L - 4) 4 := by
      unfold le
      rw [hdrop w rfl, hdrop v hl.symm]
    have htake : ∀ z : Bytes, z.length = w.length → (front ++ z ++ rest).take (L - 12)
        = front ++ z.take (L - 12 - front.length)
          ++ rest.take (L - 12 - front.length - w.length) := by
      intro z hz
      rw [List.append_assoc, List.take_append, List.take_of_length_le (by omega), List.take_append,
        hz, List.append_assoc]
    rw [htake w rfl] at a6
    rw [htake v hl.symm] at b6
    refine C53_four_bytes (BitVec.ofNat 32 s) front (rest.take (L - 12 - front.length - w.length))
      (w.take (L - 12 - front.length)) (v.take (L - 12 - front.length))
      (by rw [List.length_take]; omega) (by rw [List.length_take, List.length_take]; omega) ?_
      (by rw [a6, b6, hcs])
    intro hwv
    exact hU (by rw [htake w rfl, htake v hl.symm, hwv])

/-- C72: a call has one outcome. -/
theorem C72_one_outcome (s s1 s2 : W × Ext4Directory D) (r1 r2 : Res (Option DirEntry))
    (h1 : EntryReturns dev s s1 r1) (h2 : EntryReturns dev s s2 r2) : s1 = s2 ∧ r1 = r2 :=
  Ext4Directory.entryReturns_unique h1 h2

/-- C72: if the directory consists of whole written blocks `xs`, calls return, block after block in the
order of the directory, the records of a block (or one error, if it is not sound), and then always
`None`. -/
theorem C72_lists (hv : VolumeSpec False dev G Is At) (c : Bytes) (hc : c.length < U64) (w : W)
    (hG : G w) (fs : Ext4Fs D) (ho : Opened Is c fs) (inode : Inode) (d : Ext4Directory D)
    (hd : Ext4Directory.open fs inode = .ok d) (xs : List Nat)
    (hx : Contiguous c (blockSizeOf (sbOf c)) inode.blocksBuffer 0 0 xs)
    (hsize : inode.fileSizeBytes = xs.length * blockSizeOf (sbOf c)) (h32 : xs.length < U32)
    (hin : ∀ x ∈ xs, BlockInside c (blockSizeOf (sbOf c)) x)
    (rss : List (List (Res (Option DirEntry))))
    (hrss : List.Forall₂ (fun x rs => BlockResults inode.metadataChecksumSeed
      (blockOf c (blockSizeOf (sbOf c)) x) rs) xs rss) (n : Nat) :
    ∃ s', DirCalls dev (w, d) ((List.range n).map fun k => rss.flatten[k]?.getD (.ok none)) s' := by
  obtain ⟨hi, h1, h2, h3⟩ := Ext4Directory.open_inv (w := w) hG ho hd (fun _ => True) trivial
    (.inr (by rw [hsize]; exact Nat.mul_le_mul_right _ (by omega)))
  have hpen : Ext4File.Pending c (blockSizeOf (sbOf c)) d.internal.stack 0 xs := by
    rw [h3, ← List.append_nil xs]
    exact .tree _ _ _ _ _ _ hx (.nil _)
  exact Ext4Directory.calls_give hv hc n (w, d) rss.flatten
    ⟨0, xs, [], rss, ⟨hi.file, h2, hpen, by rw [Nat.zero_add]; exact hsize,
      by rw [Nat.zero_add]; exact h32, hin⟩, .inl ⟨h1, rfl⟩, hrss, rfl⟩

/-- C72: if the extent tree has no cycles, its nodes hold their entries and the directory has less than
2^32 blocks, every call returns, without a panic; also after errors, and if the device fails. -/
theorem C72_terminates (hv : VolumeSpec F dev G Is At) (c : Bytes) (hc : c.length < U64) (w : W)
    (hG : G w) (fs : Ext4Fs D) (ho : Opened Is c fs) (inode : Inode) (d : Ext4Directory D)
    (hd : Ext4Directory.open fs inode = .ok d)
    (ht : Tame c (blockSizeOf (sbOf c)) inode.blocksBuffer)
    (hsize : inode.fileSizeBytes ≤ (U32 - 1) * blockSizeOf (sbOf c))
    (h : List (Res (Option DirEntry))) (s : W × Ext4Directory D) (hcalls : DirCalls dev (w, d) h s) :
    ∃ s' r, EntryReturns dev s s' r ∧ r ≠ .panic := by
  obtain ⟨hi, -⟩ := Ext4Directory.open_inv (w := w) hG ho hd _ ht (.inr hsize)
  exact Ext4Directory.entryReturns_ends hv hc hsize
    (Ext4Directory.dirCalls_inv hv hc (Ext4File.closed_tame _ _) hcalls hi)

/-- C72: whatever the directory contains and whatever fails: the results of the calls are those of
reads `g` of the directory as a file, one block at a time, in the order of the reads: the records of a
sound block, one error for any other block, the error of a read that fails.  Once a read has found
the end of the file there are no more reads, and all further results are `None`; before that, no
result is `None`. -/
theorem C72_follows (hv : VolumeSpec F dev G Is At) (c : Bytes) (hc : c.length < U64) (w : W)
    (hG : G w) (fs : Ext4Fs D) (ho : Opened Is c fs) (inode : Inode) (d : Ext4Directory D)
    (hd : Ext4Directory.open fs inode = .ok d) (hw : BlocksCounted c inode.fileSizeBytes)
    (f : Ext4File D) (hf : Ext4File.open fs inode = .ok f) (h : List (Res (Option DirEntry)))
    (s : W × Ext4Directory D) (hcalls : DirCalls dev (w, d) h s) :
    ∃ (g : List (Bytes × Res (Nat × Bytes))) (rss : List (List (Res (Option DirEntry))))
      (s' : W × Ext4File D), Calls dev (w, f) g s' ∧
      (∀ x ∈ g, x.1 = zeros (blockSizeOf (sbOf c))) ∧
      List.Forall₂ (fun x rs =>
        ReadResults inode.metadataChecksumSeed (blockSizeOf (sbOf c)) x.2 rs) g rss ∧
      (((∀ x ∈ g, ¬ AtEnd x.2) ∧ h <+: rss.flatten) ∨
        ∃ g' x k, g = g' ++ [x] ∧ AtEnd x.2 ∧ (∀ y ∈ g', ¬ AtEnd y.2) ∧
          h = rss.flatten ++ List.replicate k (.ok none)) := by
  obtain ⟨hi, h1, -⟩ := Ext4Directory.open_inv (w := w) hG ho hd (fun _ => True) trivial hw
  have hdf : d.internal = f := by
    unfold Ext4Directory.open at hd
    split at hd
    · cases hd
    · rw [hf] at hd; cases hd; rfl
  obtain ⟨g, rss, todo, k, g1, g2, g3, g4, g5⟩ := Ext4Directory.follows_calls hv hc hcalls hi h1
  refine ⟨g, rss, _, hdf ▸ g1, g2, g3, ?_⟩
  rcases g5 with ⟨-, rfl, g', x, g6, g7, g8⟩ | ⟨rfl, g6, -⟩
  · right
    rw [List.map_nil, List.append_nil] at g4
    exact ⟨g', x, k, g6, g7, g8, g4⟩
  · left
    rw [List.replicate_zero, List.append_nil] at g4
    exact ⟨g6, _, g4⟩

end
end MdRecover
