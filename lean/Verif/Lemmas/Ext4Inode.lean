import Verif.Lemmas.Ext4Fs
import Verif.Props.Wide

namespace MdRecover
variable [Build]
open MdSpec

omit [Build] in
theorem leNat_append_zeros (x : Bytes) (k : Nat) : leNat (x ++ List.replicate k 0) = leNat x := by
  induction x with
  | nil =>
    induction k with
    | zero => rfl
    | succ k ih =>
      rw [List.nil_append] at ih ⊢
      simp only [List.replicate_succ, leNat] at ih ⊢
      rw [ih]; rfl
  | cons a x ih => rw [List.cons_append, leNat, leNat, ih]

omit [Build] in
/-- Padding with zeros does not change the integers read. -/
theorem le_padded (src : Bytes) (k off w : Nat) : le (overwrite (zeros k) src) off w = le src off w := by
  unfold le overwrite zeros
  rw [List.drop_replicate, List.drop_append, List.take_append, List.drop_replicate,
    List.take_replicate, leNat_append_zeros]

omit [Build] in
theorem le_take (b : Bytes) {off w n : Nat} (h : off + w ≤ n) : le (b.take n) off w = le b off w := by
  unfold le
  rw [List.drop_take, List.take_take, Nat.min_eq_left (by omega)]

namespace BlockGroup

omit [Build] in
theorem get_at {f : GroupField} {off w : Nat}
    (h : (groupLayout.offset f, groupLayout.width f) = (off, w)) (hw : off + w ≤ 60) (b : Bytes) :
    (new b).get f = le b off w := by
  have h60 : groupLayout.size = 60 := by decide +kernel
  have : b.take (min b.length 60) = b.take 60 := by
    by_cases hl : b.length ≤ 60
    · rw [Nat.min_eq_left hl, List.take_of_length_le hl, List.take_of_length_le (Nat.le_refl _)]
    · rw [Nat.min_eq_right (by omega)]
  show le (overwrite (zeros groupLayout.size) (b.take (min b.length groupLayout.size))) _ _ = _
  rw [(Prod.mk.inj h).1, (Prod.mk.inj h).2, h60, le_padded, this, le_take b hw]

end BlockGroup

namespace Inode

omit [Build] in
/-- Declared length of the inode in a buffer. -/
theorem sourceLength_eq (b : Bytes) :
    sourceLength b = 128 + min (if 130 < b.length then le b 0x80 2 else 0) 160 := by
  have h1 : inodeLayout.offset .extraIsize = 128 := by decide +kernel
  have h2 : inodeLayout.width .extraIsize = 2 := by decide +kernel
  have h3 : inodeLayout.size = 160 := by decide +kernel
  have h4 : inodeLayout.nat .little b .extraIsize = le b 0x80 2 := by
    show le b _ _ = _
    rw [h1, h2]
  unfold sourceLength
  simp only [h1, h2, h3, h4]

omit [Build] in
theorem get_at {f : InodeField} {off w : Nat}
    (h : (inodeLayout.offset f, inodeLayout.width f) = (off, w)) (src : Bytes) (m : Option Nat) :
    (Inode.mk (overwrite (zeros 160) src) m).get f = le src off w := by
  show le (overwrite (zeros 160) src) _ _ = _
  rw [(Prod.mk.inj h).1, (Prod.mk.inj h).2, le_padded]

end Inode

namespace Ext4Fs
section
variable {W D : Type} {F : Prop} {dev : StreamDev W D} {G : W → Prop} {Is : D → Bytes → Prop}
  {At : W → D → Nat → Prop}

omit [Build] in
theorem onDevice_eq {α : Type} {m : SM (W × D) α} {w w' : W} {fs : Ext4Fs D} {d' : D} {r : Res α}
    (h : m (w, fs.device) = ((w', d'), r)) :
    onDevice m (w, fs) = ((w', { fs with device := d' }), r) := by
  unfold onDevice SM.zoom
  simp only [h]

omit [Build] in
theorem _root_.MdSpec.Opened.withDevice {c : Bytes} {fs : Ext4Fs D} (h : Opened Is c fs) {d' : D}
    (hd : Is d' c) : Opened Is c { fs with device := d' } :=
  ⟨hd, h.long, h.readable, h.fits, h.superblock, h.groups⟩

section
variable {c : Bytes} {fs : Ext4Fs D} (ho : Opened Is c fs)
include ho

theorem _root_.MdSpec.Opened.valid : fs.superblock.valid = .ok true :=
  fs.superblock.valid_iff.2 (ho.superblock ▸ ho.readable.ok)

theorem _root_.MdSpec.Opened.blockSize : fs.superblock.blockSizeBytes = .ok (blockSizeOf (sbOf c)) := by
  rw [← ho.superblock]; exact (C55_sizes _ ho.valid).1

omit [Build] in
theorem _root_.MdSpec.Opened.inodesCount : fs.superblock.inodesCount = le (sbOf c) 0 4 := by
  rw [← ho.superblock]; exact Ext4Superblock.get_at (by decide +kernel) _

omit [Build] in
theorem _root_.MdSpec.Opened.inodesPerGroup : fs.superblock.inodesPerGroup = le (sbOf c) 0x28 4 := by
  rw [← ho.superblock]; exact Ext4Superblock.get_at (by decide +kernel) _

omit [Build] in
theorem _root_.MdSpec.Opened.inodeSize : fs.superblock.inodeSize = le (sbOf c) 0x58 2 := by
  rw [← ho.superblock]; exact Ext4Superblock.get_at (by decide +kernel) _

omit [Build] in
theorem _root_.MdSpec.Opened.group {i : Nat} (hi : i < groupsOf (sbOf c)) :
    fs.groups[i]? = some (BlockGroup.new (descriptorOf c i)) := by
  rw [ho.groups, List.getElem?_map, List.getElem?_range hi]; rfl

omit [Build] in
theorem _root_.MdSpec.Opened.noGroup {i : Nat} (hi : groupsOf (sbOf c) ≤ i) :
    fs.groups[i]? = none := by
  rw [ho.groups, List.getElem?_eq_none_iff]; simpa using hi

end

omit [Build] in
theorem inodeTableBlock_new (c : Bytes) (i : Nat) :
    (BlockGroup.new (descriptorOf c i)).inodeTableBlock = inodeTableOf c i := by
  unfold BlockGroup.inodeTableBlock inodeTableOf
  rw [BlockGroup.get_at (off := 0x8) (w := 4) (by decide +kernel) (by omega),
    BlockGroup.get_at (off := 0x28) (w := 4) (by decide +kernel) (by omega),
    (C51_value 32 _ _ (le_lt _ _ 4) (le_lt _ _ 4)).1]

/-- The byte offset of an inode. -/
theorem inodeOffset_spec {c : Bytes} {fs : Ext4Fs D} (ho : Opened Is c fs) (n : Nat) :
    inodeOffset fs n =
      if n = 0 ∨ le (sbOf c) 0 4 < n then .err .invalidInput
      else if groupsOf (sbOf c) ≤ (n - 1) / le (sbOf c) 0x28 4 then .err .invalidInput
      else if inodeSlot c n < U64 then .ok (inodeSlot c n) else .err .invalidData := by
  have h28 := ho.readable.inodesPerGroup
  unfold inodeOffset
  rw [ho.inodesCount]
  split
  · rfl
  rename_i hn
  have hoo : ∀ (e : ErrKind) (a : Nat), Res.ofOption e (some a) = .ok a := fun _ _ => rfl
  have hog : ∀ (e : ErrKind) (a : BlockGroup), Res.ofOption e (some a) = .ok a := fun _ _ => rfl
  have hon : ∀ (e : ErrKind), Res.ofOption e (none : Option BlockGroup) = .err e := fun _ => rfl
  have hon' : ∀ (e : ErrKind), Res.ofOption e (none : Option Nat) = .err e := fun _ => rfl
  rw [ho.inodesPerGroup, divP, if_neg h28, Res.bind_ok]
  split
  · rename_i hg
    rw [ho.noGroup hg, hon, Res.bind_err]
  rename_i hg
  rw [ho.group (Nat.lt_of_not_le hg), hog, Res.bind_ok]
  have hm : le (sbOf c) 0x28 4 < 2 ^ 32 := le_lt _ _ 4
  have hidx : (n - 1) % le (sbOf c) 0x28 4 < 2 ^ 32 :=
    Nat.lt_trans (Nat.mod_lt _ (Nat.pos_of_ne_zero h28)) hm
  have hsz : fs.superblock.inodeSize < 2 ^ 32 := by
    rw [ho.inodeSize]
    have : le (sbOf c) 0x58 2 < 65536 := le_lt _ _ 2
    omega
  rw [C51_long_mul 32 _ _ hidx hsz, ho.inodeSize, Res.bind_ok, ho.blockSize, Res.bind_ok,
    inodeTableBlock_new]
  unfold inodeSlot
  by_cases ha : inodeTableOf c ((n - 1) / le (sbOf c) 0x28 4) * blockSizeOf (sbOf c) < U64
  · rw [checkedMul64_pos ha, hoo, Res.bind_ok]
    unfold checkedAdd64
    split
    · exact hoo _ _
    · exact hon' _
  · rw [checkedMul64_neg ha, hon', Res.bind_err, if_neg]
    exact fun h => ha (Nat.lt_of_le_of_lt (Nat.le_add_right _ _) h)

/-- Reading an inode. -/
theorem readInode_spec (hv : VolumeSpec F dev G Is At) {c : Bytes} {w : W} {fs : Ext4Fs D}
    (hG : G w) (ho : Opened Is c fs) (n : Nat) :
    ∃ w' fs' r, readInode dev n (w, fs) = ((w', fs'), r) ∧ G w' ∧ Opened Is c fs' ∧
      fs'.superblock = fs.superblock ∧
      (((n = 0 ∨ le (sbOf c) 0 4 < n ∨ groupsOf (sbOf c) ≤ (n - 1) / le (sbOf c) 0x28 4) ∧
          r = .err .invalidInput) ∨
       (¬ (n = 0 ∨ le (sbOf c) 0 4 < n ∨ groupsOf (sbOf c) ≤ (n - 1) / le (sbOf c) 0x28 4) ∧
        (((F ∨ c.length < inodeSlot c n + le (sbOf c) 0x58 2 ∨ U64 ≤ inodeSlot c n) ∧
            ∃ e, r = .err e) ∨
         ((le (sbOf c) 0x58 2 = 0 ∨ inodeSlot c n + le (sbOf c) 0x58 2 ≤ c.length) ∧
          r = Inode.new fs.superblock n (slice c (inodeSlot c n) (le (sbOf c) 0x58 2)))))) := by
  unfold readInode
  have hget : (SM.get : SM (W × Ext4Fs D) _) (w, fs) = ((w, fs), .ok (w, fs)) := rfl
  rw [SM.bind_ok (h := hget)]
  show ∃ w' fs' r, (SM.lift (inodeOffset fs n) >>= _) (w, fs) = _ ∧ _
  rw [inodeOffset_spec ho]
  by_cases h1 : n = 0 ∨ le (sbOf c) 0 4 < n
  · rw [if_pos h1]
    refine ⟨w, fs, _, rfl, hG, ho, rfl, .inl ⟨?_, rfl⟩⟩
    rcases h1 with h1 | h1
    · exact .inl h1
    · exact .inr (.inl h1)
  rw [if_neg h1]
  by_cases h2 : groupsOf (sbOf c) ≤ (n - 1) / le (sbOf c) 0x28 4
  · rw [if_pos h2]
    exact ⟨w, fs, _, rfl, hG, ho, rfl, .inl ⟨.inr (.inr h2), rfl⟩⟩
  rw [if_neg h2]
  have hin : ¬ (n = 0 ∨ le (sbOf c) 0 4 < n ∨ groupsOf (sbOf c) ≤ (n - 1) / le (sbOf c) 0x28 4) := by
    rintro (h | h | h)
    · exact h1 (.inl h)
    · exact h1 (.inr h)
    · exact h2 h
  by_cases h3 : inodeSlot c n < U64
  rotate_left
  · rw [if_neg h3]
    exact ⟨w, fs, _, rfl, hG, ho, rfl, .inr ⟨hin, .inl ⟨.inr (.inr (by omega)), _, rfl⟩⟩⟩
  rw [if_pos h3]
  have hl : (SM.lift (.ok (inodeSlot c n)) : SM (W × Ext4Fs D) Nat) (w, fs)
      = ((w, fs), .ok (inodeSlot c n)) := rfl
  rw [SM.bind_ok (h := hl)]
  have hz : (zeros (le (sbOf c) 0x58 2)).length = le (sbOf c) 0x58 2 := List.length_replicate
  obtain ⟨w1, d1, r1, h4, hG1, hI1, h5⟩ :=
    volume_readAt hv hG ho.device h3 (zeros (le (sbOf c) 0x58 2))
  rw [hz] at h5
  have h4' := onDevice_eq h4
  rcases h5 with ⟨h5, e, rfl⟩ | ⟨q, rfl, w2, d2, r2, h6, hG2, hI2, h7⟩
  · refine ⟨w1, _, _, SM.bind_err (h := h4') _, hG1, ho.withDevice hI1, rfl,
      .inr ⟨hin, .inl ⟨?_, e, rfl⟩⟩⟩
    rcases h5 with h5 | h5
    · exact .inl h5
    · exact .inr (.inl (by omega))
  rw [SM.bind_ok (h := h4'), ho.inodeSize]
  have h6' := onDevice_eq (fs := { fs with device := d1 }) h6
  rcases h7 with ⟨h7, e, rfl⟩ | ⟨h7, -, rfl⟩
  · refine ⟨w2, _, _, SM.bind_err (h := h6') _, hG2, ho.withDevice hI2, rfl,
      .inr ⟨hin, .inl ⟨?_, e, rfl⟩⟩⟩
    rcases h7 with h7 | h7
    · exact .inl h7
    · exact .inr (.inl h7)
  · rw [SM.bind_ok (h := h6')]
    refine ⟨w2, _, _, rfl, hG2, ho.withDevice hI2, rfl, .inr ⟨hin, .inr ⟨?_, rfl⟩⟩⟩
    rcases h7 with h7 | h7
    · left; rw [← hz, h7]; rfl
    · exact .inr h7

/-- Reading a block. -/
theorem readBlock_spec (hv : VolumeSpec F dev G Is At) {c : Bytes} {w : W} {fs : Ext4Fs D}
    (hG : G w) (ho : Opened Is c fs) (b : Nat) (buf : Bytes) :
    ∃ w' fs' r, readBlock dev b buf (w, fs) = ((w', fs'), r) ∧ G w' ∧ Opened Is c fs' ∧
      fs'.superblock = fs.superblock ∧
      (((F ∨ buf.length < blockSizeOf (sbOf c) ∨ U64 ≤ b * blockSizeOf (sbOf c) ∨
          c.length < b * blockSizeOf (sbOf c) + buf.length) ∧ ∃ e, r = .err e) ∨
       (blockSizeOf (sbOf c) ≤ buf.length ∧ b * blockSizeOf (sbOf c) + buf.length ≤ c.length ∧
          r = .ok (slice c (b * blockSizeOf (sbOf c)) buf.length))) := by
  have hpos : 0 < blockSizeOf (sbOf c) := Nat.mul_pos (by omega) (Nat.two_pow_pos _)
  unfold readBlock
  have hget : (SM.get : SM (W × Ext4Fs D) _) (w, fs) = ((w, fs), .ok (w, fs)) := rfl
  rw [SM.bind_ok (h := hget)]
  show ∃ w' fs' r, (SM.lift fs.superblock.blockSizeBytes >>= _) (w, fs) = _ ∧ _
  rw [ho.blockSize]
  have hl : (SM.lift (.ok (blockSizeOf (sbOf c))) : SM (W × Ext4Fs D) Nat) (w, fs)
      = ((w, fs), .ok (blockSizeOf (sbOf c))) := rfl
  rw [SM.bind_ok (h := hl)]
  by_cases h1 : buf.length < blockSizeOf (sbOf c)
  · rw [if_pos h1]
    exact ⟨w, fs, _, rfl, hG, ho, rfl, .inl ⟨.inr (.inl h1), _, rfl⟩⟩
  rw [if_neg h1]
  by_cases h2 : b * blockSizeOf (sbOf c) < U64
  rotate_left
  · rw [checkedMul64_neg h2]
    exact ⟨w, fs, _, rfl, hG, ho, rfl, .inl ⟨.inr (.inr (.inl (by omega))), _, rfl⟩⟩
  rw [checkedMul64_pos h2]
  have hl : (SM.lift (Res.ofOption ErrKind.invalidInput (some (b * blockSizeOf (sbOf c)))) :
      SM (W × Ext4Fs D) Nat) (w, fs) = ((w, fs), .ok (b * blockSizeOf (sbOf c))) := rfl
  rw [SM.bind_ok (h := hl)]
  obtain ⟨w1, d1, r1, h4, hG1, hI1, h5⟩ := volume_readAt hv hG ho.device h2 buf
  have h4' := onDevice_eq h4
  rcases h5 with ⟨h5, e, rfl⟩ | ⟨q, rfl, w2, d2, r2, h6, hG2, hI2, h7⟩
  · refine ⟨w1, _, _, SM.bind_err (h := h4') _, hG1, ho.withDevice hI1, rfl, .inl ⟨?_, e, rfl⟩⟩
    rcases h5 with h5 | h5
    · exact .inl h5
    · exact .inr (.inr (.inr (by omega)))
  rw [SM.bind_ok (h := h4')]
  have h6' := onDevice_eq (fs := { fs with device := d1 }) h6
  rw [h6']
  rcases h7 with ⟨h7, e, rfl⟩ | ⟨h7, -, rfl⟩
  · refine ⟨w2, _, _, rfl, hG2, ho.withDevice hI2, rfl, .inl ⟨?_, e, rfl⟩⟩
    rcases h7 with h7 | h7
    · exact .inl h7
    · exact .inr (.inr (.inr h7))
  · refine ⟨w2, _, _, rfl, hG2, ho.withDevice hI2, rfl, .inr ⟨by omega, ?_, rfl⟩⟩
    rcases h7 with h7 | h7
    · subst h7; simp at h1; omega
    · exact h7

end
end Ext4Fs
end MdRecover
