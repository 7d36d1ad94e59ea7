import Verif.Lemmas.Salvage
import Verif.Props.Patchy
import Verif.Props.TreeFound

/-! C127: a program that goes on after errors saves all that can be read. -/

namespace MdRecover
open MdSpec Fixture

section
variable [Build]

/-- C127, nothing is made up and nothing stops it: on any volume whose structures hold what they declare, whatever
else is wrong with it and whatever fails, the program does not panic; and what it returns is on the volume. -/
theorem C127_backed {W D : Type} {F : Prop} {dev : StreamDev W D} {G : W → Prop} {Is : D → Bytes → Prop}
    {At : W → D → Nat → Prop} (hv : VolumeSpec F dev G Is At) (c : Bytes) (hl : c.length < U64)
    (ht : TableChecked c) (hs : HoldsWhatItDeclares c) (w : W) (hG : G w) (d : D) (hd : Is d c)
    (rounds depth : Nat) :
    (∃ y, (saveTree dev rounds depth d w).2 = .ok y ∧ Ext4Readable (sbOf c) ∧ SavedFound c depth 2 y) ∨
      ((F ∨ ¬ Ext4Openable c) ∧ ∃ e, (saveTree dev rounds depth d w).2 = .err e) := by
  obtain ⟨w', r, h1, hG', h2⟩ := Ext4Fs.open_spec hv hG hd ht
  rw [saveTree]
  rcases h2 with ⟨fs, rfl, ho, -⟩ | ⟨hF, e, rfl⟩ | ⟨h, -⟩
  · rw [SM.bind_ok (h := h1)]
    obtain ⟨s', y, h3, -, h4⟩ := save_safe hv hl hs rounds depth 2 (w', fs) ⟨hG', ho⟩
    refine .inl ⟨y, ?_, ho.readable, h4⟩
    show (save dev rounds depth 2 (w', fs)).2 = _
    rw [h3]
  · rw [SM.bind_err (h := h1)]
    exact .inr ⟨hF.imp id And.left, e, rfl⟩
  · exact absurd h hs.opening

/-- The bounds for each of a list of paths. -/
theorem saves_list {c : Bytes} (hop : Ext4Openable c) (hl : c.length < 2 ^ 57) (hs : HoldsWhatItDeclares c)
    (paths : List (List Bytes × Found)) (hp : ∀ p ∈ paths, Says c p.1 p.2 ∧ p.2 ≠ .otherType ∧
      ∀ name ∈ p.1, isDots name = false) :
    ∃ N, ∀ p ∈ paths, ∀ {W D : Type} {bad : Nat → Prop} {lim : Nat → Nat} {dev : StreamDev W D} {G : W → Prop}
      {Is : D → Bytes → Prop} {At : W → D → Nat → Prop}, PatchyVolume bad lim dev G Is At →
      c.length ≤ lim c.length → lim c.length ≤ U64 → PathIntact bad c p.1 → ∀ rounds, N ≤ rounds →
      ∀ depth, p.1.length < depth → ∀ s : W × Ext4Fs D, (G s.1 ∧ Opened Is c s.2) →
        ∃ s' y, save dev rounds depth 2 s = (s', .ok y) ∧ savedAt y p.1 = some p.2 := by
  induction paths with
  | nil => exact ⟨0, fun p hp => absurd hp List.not_mem_nil⟩
  | cons p ps ih =>
    obtain ⟨N, h⟩ := ih fun q hq => hp q (List.mem_cons_of_mem _ hq)
    obtain ⟨h1, h2, h3⟩ := hp p List.mem_cons_self
    obtain ⟨N', h'⟩ := saves_says hop hl hs h1 h2 h3
    refine ⟨N + N', fun q hq {W D bad lim dev G Is At} hv hlim hlim2 hi rounds hr => ?_⟩
    rcases List.mem_cons.1 hq with rfl | hq
    · exact h' hv hlim hlim2 hi rounds (by omega)
    · exact h q hq hv hlim hlim2 hi rounds (by omega)

/-- C127, all that can be read is saved: let the bytes of a volume say what is at the end of some paths (C98), files
or nothing.  On a device some bytes of which cannot be read, among them none of the superblock and the group
descriptors, the program returns, and what it returns says the same of each path all of whose inodes and blocks can
be read: however much of the rest of the volume is damaged or cannot be read.  (Directories without hash index,
as everywhere.)  The same bound on the loops is enough for all devices. -/
theorem C127_complete (c : Bytes) (hop : Ext4Openable c) (hl : c.length < 2 ^ 57) (hs : HoldsWhatItDeclares c)
    (paths : List (List Bytes × Found)) (hp : ∀ p ∈ paths, Says c p.1 p.2 ∧ p.2 ≠ .otherType ∧
      ∀ name ∈ p.1, isDots name = false) :
    ∃ N, ∀ {W D : Type} {bad : Nat → Prop} {lim : Nat → Nat} {dev : StreamDev W D} {G : W → Prop}
      {Is : D → Bytes → Prop} {At : W → D → Nat → Prop}, PatchyVolume bad lim dev G Is At →
      c.length ≤ lim c.length → lim c.length ≤ U64 → FsIntact bad c → ∀ (w : W) (d : D), G w → Is d c →
      ∀ rounds, N ≤ rounds → ∀ depth, ∃ y, (saveTree dev rounds depth d w).2 = .ok y ∧
        ∀ p ∈ paths, PathIntact bad c p.1 → p.1.length < depth → savedAt y p.1 = some p.2 := by
  obtain ⟨N, h⟩ := saves_list hop hl hs paths hp
  refine ⟨N, fun {W D bad lim dev G Is At} hv hlim hlim2 hf w d hG hI rounds hr depth => ?_⟩
  have ha := hv.agree (by omega) hlim
  have hI' : (fun d c' => c' = c ∧ Is d c) d c := ⟨rfl, hI⟩
  obtain ⟨w', fs, h1, hG', ho⟩ := open_opened ha.perfect hG hI' hop hl
  have hb : TableChecked c := .inr (by have := hop.fits; omega)
  rw [← ha.openFs hG hI' hb hf] at h1
  obtain ⟨s', y, h2, -, -⟩ := save_safe hv.toVolumeSpec (by omega) hs rounds depth 2 (w', fs)
    ⟨hG', opened_same.1 ho⟩
  refine ⟨y, ?_, fun p hp hi hd => ?_⟩
  · rw [saveTree, SM.bind_ok (h := h1)]
    show (save dev rounds depth 2 (w', fs)).2 = _
    rw [h2]
  · obtain ⟨s2, y2, h3, h4⟩ := h p hp hv hlim hlim2 hi rounds hr depth hd (w', fs) ⟨hG', opened_same.1 ho⟩
    rw [h2] at h3
    cases h3
    exact h4

end

/-- C127, on a RAID6 array (as in C101): members with unreadable blocks, and with damage, in each sector on one member
at most.  What is needed is readable if no sector of it is in a stripe with damage to data or P, or with something
unreadable. -/
theorem C127_array [Build] {content : Bytes} (hop : Ext4Openable content) (hl : content.length < 2 ^ 57)
    (hs : HoldsWhatItDeclares content) (paths : List (List Bytes × Found))
    (hp : ∀ p ∈ paths, Says content p.1 p.2 ∧ p.2 ≠ .otherType ∧ ∀ name ∈ p.1, isDots name = false) :
    ∃ N, ∀ {W D : Type} {dev : BlockDev W D} {G : W → Prop} {Is : D → Disk → (Nat → Prop) → Prop},
      PatchyDev dev G Is → ∀ {ord : IterOrder}, ord.Valid → ∀ {L n c size : Nat} {alg : Raid6Algorithm}
      {good members : Nat → Disk} {unreadable : Nat → Nat → Prop} {devices : List (MdDevice D)},
      Raid6Algorithm.fromLayout L = some alg →
      ReadableSet (fun d k => ∃ u, Is d k u) alg n c size members devices →
      (∀ d, d < n → ∀ x, SoleClaim devices x d → Is x.device (members d) (unreadable d)) →
      Raid6Set L n c size good content → OneDamaged n size good members →
      let bad := fun x => Affected L n c good members (x / 512) ∨ StripeUnreadable n c members unreadable (x / 512)
      FsIntact bad content → ∀ w, G w → ∀ rounds, N ≤ rounds → ∀ depth,
        ∃ y, (saveTree (Reader.streamDev (MdArray.dev dev)) rounds depth
          (Reader.new (MdArray.open ord devices)) w).2 = .ok y ∧
          ∀ p ∈ paths, PathIntact bad content p.1 → p.1.length < depth → savedAt y p.1 = some p.2 := by
  obtain ⟨N, h⟩ := C127_complete content hop hl hs paths hp
  refine ⟨N, fun {W D dev G Is} hd {ord} hord {L n c size alg good members unreadable devices} hL hr hu hset hdam => ?_⟩
  intro bad hf w hG rounds hn depth
  have ha := C101_array hd hord hL hr hu hset hdam
  exact h (Reader.patchyVolume ha ⟨512, size * (n - 2), content⟩ _) (by simp only [noLimit]; omega)
    (by simp only [noLimit]; omega) hf w _ hG ⟨rfl, 0, Reader.at_new (ha.wf ⟨rfl, rfl, rfl⟩) ⟨rfl, rfl, rfl⟩⟩
    rounds hn depth

/-! ## Written volumes -/

namespace MkfsLemmas
open Mkfs
variable {k : Form} {t : List Node} {c tail : Bytes} (hc : c = volume k t ++ tail) (hf : Fits k t)
include hc hf

/-- The blocks of a file or directory. -/
theorem treeBlock_volume {i : Nat} {nd : Node} (hi : t[i]? = some nd) {x : Nat}
    (hx : TreeBlock c (bs k) (rootNode c (i + 2)) x) : start k t i ≤ x ∧ x < start k t i + blocks k nd := by
  have hm := List.mem_of_getElem? hi
  obtain ⟨-, -, -, -, -, hr⟩ := inode_volume hc hf i nd hi
  obtain ⟨h1, h2, -, h4⟩ := root_values (start k t i) (blocks k nd) (hf.sizes nd hm)
  obtain ⟨node, j, hnode, -, hj, h⟩ := hx
  rw [hr] at hnode
  have : node = extentRoot (start k t i) (blocks k nd) := by
    clear hj h
    induction hnode with
    | root => rfl
    | child node j _ hd _ _ _ ih =>
      rw [ih] at hd
      exact absurd h2 hd
  subst this
  rcases h with ⟨h, -⟩ | ⟨-, q, hq, rfl⟩
  · exact absurd h2 h
  rw [h1] at hj
  rw [h4 j hj] at hq ⊢
  have hlt := start_add hc hf i nd hi
  have hj' : j * 32767 ≤ blocks k nd := by
    unfold extents at hj
    omega
  obtain ⟨e1, e2, e3⟩ := extent_values (start k t i) (blocks k nd) j (by have := hf.total; omega) hj'
  rw [e3]
  unfold extentLen at hq
  rw [e2] at hq
  have : q < min 32767 (blocks k nd - j * 32767) := by
    split at hq <;> omega
  omega

/-- The places on a path. -/
theorem places_leads {n m : Nat} {front : List Bytes} (hle : Leads c CleanName n front m) :
    ∀ {i : Nat}, n = i + 2 → i < t.length → ∀ rest, ∃ j pre, m = j + 2 ∧ j < t.length ∧
      placesOn t i (front ++ rest) = pre ++ placesOn t j rest := by
  induction hle with
  | here n =>
    intro i hn hi rest
    exact ⟨i, [], hn, hi, rfl⟩
  | into n m name names before after e hd hn hb hcl hle ih =>
    rintro i rfl hi rest
    have hti : t[i]? = some t[i] := List.getElem?_eq_getElem hi
    generalize t[i] = nd at hti
    have hty := (inode_volume hc hf i nd hti).2.1
    cases nd with
    | file b =>
      rw [hd.type] at hty
      exact absurd hty (show ¬ 4 = 0x81a4 / 2 ^ 12 by decide)
    | dir es =>
      have hm := List.mem_of_getElem? hti
      have hu := directoryAt_unique hd (directory_volume hc hf i es hti)
      have hev := entry_values hf es hm
      obtain ⟨bs1, as1, rfl, rfl, ha1⟩ := List.append_eq_map_iff.1 hu
      obtain ⟨e0, as2, rfl, rfl, -⟩ := List.map_eq_cons_iff.1 ha1
      have he0 : e0 ∈ bs1 ++ e0 :: as2 := by simp
      obtain ⟨-, -, g1, g2, -⟩ := hev e0 he0
      have hfind : (bs1 ++ e0 :: as2).find? (fun e => e.1 == name) = some e0 := by
        rw [List.find?_eq_some_iff_append]
        refine ⟨by rw [beq_iff_eq, ← g2]; exact hn.2, bs1, as2, rfl, fun a ha => ?_⟩
        obtain ⟨-, -, q1, q2, -⟩ := hev a (List.mem_append_left _ ha)
        rw [Bool.not_eq_true', beq_eq_false_iff_ne]
        intro h
        exact hb _ (List.mem_map_of_mem ha) ⟨by omega, q2.trans h⟩
      obtain ⟨j, pre, h1, h2, h3⟩ := ih g1 (hf.names _ hm e0 he0).2.2 rest
      refine ⟨j, i :: pre, h1, h2, ?_⟩
      rw [List.cons_append, placesOn, hti]
      simp only [hfind]
      rw [h3]
      rfl

/-- What is needed for a path. -/
theorem fsIntact_volume {bad : Nat → Prop} (hh : HeadIntact bad k t) : FsIntact bad c := by
  have hb := bs_pos (k := k)
  have ht : 1 ≤ tableBlocks k t := by unfold tableBlocks; generalize (t.length + 1) / (8 * 2 ^ k.log) = q; omega
  have h2 : 2 * bs k ≥ 2048 := by
    unfold bs
    have := Nat.one_le_two_pow (n := k.log)
    omega
  have h3 : (firstData k + 2) * bs k + 1 * bs k ≤ (firstData k + 2 + tableBlocks k t) * bs k := by
    rw [← Nat.add_mul]
    exact Nat.mul_le_mul_right _ (by omega)
  have h4 : 2 * bs k ≤ (firstData k + 2) * bs k := Nat.mul_le_mul_right _ (by omega)
  refine ⟨fun x _ h _ => hh x (by omega), fun x _ h _ => hh x ?_⟩
  rw [groupTable_volume hc hf, groups_volume hc hf] at h
  have h5 : le (sbOf c) 0xfe 2 = 64 := (values_volume hc hf).descSize
  have h6 : (firstData k + 2) * bs k = (firstData k + 1) * bs k + bs k := by
    rw [show firstData k + 2 = firstData k + 1 + 1 from rfl, Nat.add_mul, Nat.one_mul]
  omega

theorem slotIntact_volume {bad : Nat → Prop} (hh : HeadIntact bad k t) {i : Nat} (hi : i < t.length) :
    Intact bad c (inodeSlot c (i + 2)) (le (sbOf c) 0x58 2) := by
  intro x h1 h2 _
  refine hh x ?_
  rw [inodeSlot_volume hc hf i hi] at h2
  rw [(values_volume hc hf).inodeSize] at h2
  have hp := table_fits (k := k) hf.sizes
  rw [length_table hf.sizes] at hp
  have h3 : (i + 2) * 128 ≤ (t.length + 1) * 128 := Nat.mul_le_mul_right _ (by omega)
  rw [Nat.add_mul _ (tableBlocks k t)]
  omega

theorem pathIntact_volume {bad : Nat → Prop} (hh : HeadIntact bad k t) {names : List Bytes}
    (hb : BodiesIntact bad k t names) : PathIntact bad c names := by
  refine ⟨fsIntact_volume hc hf hh, ?_⟩
  rintro front rest n rfl hle
  obtain ⟨i, pre, rfl, hi, hm⟩ := places_leads hc hf hle rfl hf.root rest
  have hm : i ∈ placesOn t 0 (front ++ rest) := by
    rw [hm]
    refine List.mem_append_right _ ?_
    cases rest <;> simp [placesOn]
  have hti : t[i]? = some t[i] := List.getElem?_eq_getElem hi
  constructor
  · exact slotIntact_volume hc hf hh hi
  · rw [blockSize_volume hc hf]
    intro x hx y h1 h2 _
    obtain ⟨h3, h4⟩ := treeBlock_volume hc hf hti hx
    refine hb i hm _ hti y (Nat.le_trans (Nat.mul_le_mul_right _ h3) h1) ?_
    have : (x + 1) * bs k ≤ (start k t i + blocks k t[i]) * bs k := Nat.mul_le_mul_right _ h4
    rw [Nat.add_mul, Nat.one_mul] at this
    omega

omit hc hf in
theorem start_succ {k : Mkfs.Form} {t : List Node} {i : Nat} {nd : Node} (hi : t[i]? = some nd) :
    start k t (i + 1) = start k t i + blocks k nd := by
  unfold start
  rw [List.take_add_one, List.sum_append, List.getElem?_map, hi]
  simp [Nat.add_assoc]

omit hc hf in
theorem start_mono (k : Mkfs.Form) (t : List Node) {i j : Nat} (h : i ≤ j) : start k t i ≤ start k t j := by
  unfold start
  obtain ⟨d, rfl⟩ := Nat.exists_eq_add_of_le h
  rw [List.take_add, List.sum_append]
  omega

end MkfsLemmas

section
open Mkfs
variable [Build]

/-- C127, files that were written: on a device with a volume written from a table of files (C123), some bytes of which
cannot be read, the program saves every file of the table for which the blocks of the file and of the directories on
the way to it can be read.  Only what is in front of the files has to be readable. -/
theorem C127_written (k : Mkfs.Form) (t : List Node) (hf : Fits k t) (rest : Bytes)
    (hl : (volume k t ++ rest).length < 2 ^ 57) (paths : List (List Bytes))
    (hp : ∀ names ∈ paths, atPath t 0 names ≠ .otherType ∧ ∀ name ∈ names, isDots name = false) :
    ∃ N, ∀ {W D : Type} {bad : Nat → Prop} {lim : Nat → Nat} {dev : StreamDev W D} {G : W → Prop}
      {Is : D → Bytes → Prop} {At : W → D → Nat → Prop}, PatchyVolume bad lim dev G Is At →
      (volume k t ++ rest).length ≤ lim (volume k t ++ rest).length → lim (volume k t ++ rest).length ≤ U64 →
      HeadIntact bad k t → ∀ (w : W) (d : D), G w → Is d (volume k t ++ rest) →
      ∀ rounds, N ≤ rounds → ∀ depth, ∃ y, (saveTree dev rounds depth d w).2 = .ok y ∧
        ∀ names ∈ paths, BodiesIntact bad k t names → names.length < depth →
          savedAt y names = some (atPath t 0 names) := by
  obtain ⟨N, h⟩ := C127_complete (volume k t ++ rest) (MkfsLemmas.openable_volume rfl hf) hl
    (MkfsLemmas.holds_volume rfl hf).1 (paths.map fun names => (names, atPath t 0 names)) (by
      intro p hm
      obtain ⟨names, hn, rfl⟩ := List.mem_map.1 hm
      exact ⟨MkfsLemmas.says_volume rfl hf names, (hp names hn).1, (hp names hn).2⟩)
  refine ⟨N, fun {W D bad lim dev G Is At} hv hlim hlim2 hh w d hG hI rounds hr depth => ?_⟩
  obtain ⟨y, h1, h2⟩ := h hv hlim hlim2 (MkfsLemmas.fsIntact_volume rfl hf hh) w d hG hI rounds hr depth
  exact ⟨y, h1, fun names hn hb hd => h2 (names, atPath t 0 names) (List.mem_map_of_mem hn)
    (MkfsLemmas.pathIntact_volume rfl hf hh hb) hd⟩

/-- C127, a file that was written, read alone: as C101, for a volume written from a table of files. -/
theorem C127_reads (k : Mkfs.Form) (t : List Node) (hf : Fits k t) (rest : Bytes)
    (hl : (volume k t ++ rest).length < 2 ^ 57) {W D : Type} {bad : Nat → Prop} {lim : Nat → Nat}
    {dev : StreamDev W D} {G : W → Prop} {Is : D → Bytes → Prop} {At : W → D → Nat → Prop}
    (hv : PatchyVolume bad lim dev G Is At)
    (hlim : (volume k t ++ rest).length ≤ lim (volume k t ++ rest).length) (hh : HeadIntact bad k t)
    (w : W) (d : D) (hG : G w) (hI : Is d (volume k t ++ rest)) (names : List Bytes)
    (hb : BodiesIntact bad k t names) :
    (∃ N, ∀ rounds, N ≤ rounds → (readPath dev rounds d names w).2 = .ok (atPath t 0 names)) ∧
    ∀ rounds, (readPath dev rounds d names w).2 = .ok (atPath t 0 names) ∨
      (readPath dev rounds d names w).2 = .ok .running :=
  C101_path hv (MkfsLemmas.openable_volume rfl hf) hl hlim w hG d hI names _ (MkfsLemmas.says_volume rfl hf names)
    (MkfsLemmas.pathIntact_volume rfl hf hh hb)

/-! ## A case -/

/-- C127, one file: on a disk with blocks of 512 bytes none of the blocks of one file or directory of the table (the
`j`th) can be read.  Everything that is not behind that directory is saved. -/
theorem C127_one (t : List Node) (hf : Fits 0 t) (j : Nat) (paths : List (List Bytes))
    (hp : ∀ names ∈ paths, atPath t 0 names ≠ .otherType ∧ (∀ name ∈ names, isDots name = false) ∧
      j ∉ placesOn t 0 names) :
    ∃ N, ∀ rounds, N ≤ rounds → ∀ depth, ∃ y, (saveTree (Reader.streamDev (flawed fun x =>
        decide (start 0 t j * 2 ≤ x ∧ x < start 0 t (j + 1) * 2))) rounds depth
        (Reader.new (InMemory.new (volume 0 t) 512)) ()).2 = .ok y ∧
      ∀ names ∈ paths, names.length < depth → savedAt y names = some (atPath t 0 names) := by
  have hbs : bs 0 = 1024 := rfl
  have hlen : (volume 0 t).length = total 0 t * 1024 := by rw [MkfsLemmas.length_volume hf.sizes, hbs]
  have htot := hf.total
  have hl : (volume 0 t ++ []).length < 2 ^ 57 := by
    rw [List.append_nil, hlen]
    omega
  obtain ⟨N, h⟩ := C127_written 0 t hf [] hl paths fun names hn => ⟨(hp names hn).1, (hp names hn).2.1⟩
  rw [List.append_nil] at h
  have hpd := flawed_patchy fun x => decide (start 0 t j * 2 ≤ x ∧ x < start 0 t (j + 1) * 2)
  have hq : total 0 t * 1024 / 512 = total 0 t * 2 := by omega
  have hd : InMemory.IsDisk (InMemory.new (volume 0 t) 512) ⟨512, total 0 t * 2, volume 0 t⟩ := by
    refine ⟨show 0 < 512 by decide, show 512 < U32 by decide, ?_, ?_⟩
    · show (volume 0 t).length < U64
      rw [hlen]
      show _ < 2 ^ 64
      omega
    · show _ = Disk.mk 512 ((volume 0 t).length / 512) ((volume 0 t).take ((volume 0 t).length / 512 * 512))
      rw [hlen, hq]
      congr 1
      exact (List.take_of_length_le (by rw [hlen]; omega)).symm
  have hout : ∀ i nd, t[i]? = some nd → i ≠ j → ∀ x, start 0 t i * bs 0 ≤ x →
      x < (start 0 t i + blocks 0 nd) * bs 0 →
      ¬ (decide (start 0 t j * 2 ≤ x / 512 ∧ x / 512 < start 0 t (j + 1) * 2) = true) := by
    intro i nd hi hne x h1 h2 h3
    have h3 := of_decide_eq_true h3
    rw [hbs] at h1 h2
    have h4 := MkfsLemmas.start_succ (k := 0) hi
    rcases Nat.lt_or_ge i j with hlt | hge
    · have := MkfsLemmas.start_mono 0 t (show i + 1 ≤ j by omega)
      omega
    · have := MkfsLemmas.start_mono 0 t (show j + 1 ≤ i by omega)
      omega
  have hhead : HeadIntact (fun x => decide (start 0 t j * 2 ≤ x / 512 ∧ x / 512 < start 0 t (j + 1) * 2) = true)
      0 t := by
    intro x hx h3
    have h3 := of_decide_eq_true h3
    have := MkfsLemmas.start_mono 0 t (Nat.zero_le j)
    rw [hbs] at hx
    have h0 : start 0 t 0 = firstData 0 + 2 + tableBlocks 0 t := rfl
    omega
  refine ⟨N, fun rounds hr depth => ?_⟩
  obtain ⟨y, h1, h2⟩ := h (Reader.patchyVolume hpd ⟨512, total 0 t * 2, volume 0 t⟩ _) (by
      rw [hlen]
      show _ ≤ U64
      omega) (by
      rw [hlen]
      exact Nat.le_refl _) hhead () _ trivial ⟨rfl, 0, Reader.at_new (InMemory.devSpec.wf hd) ⟨hd, rfl⟩⟩ rounds hr depth
  refine ⟨y, h1, fun names hn hlt => h2 names hn (fun i hi nd hti => hout i nd hti ?_) hlt⟩
  rintro rfl
  exact (hp names hn).2.2 hi

/-- C127, a case: the tree of C125, with none of the blocks of the file "f" in the root directory readable.  The files
"d/g" and "d/h/f", and that there is no "d/x", are saved. -/
theorem C127_case (b b' : Bytes) (hb : b.length ≤ 2 ^ 24) (hb' : b'.length ≤ 2 ^ 24) :
    ∃ N, ∀ rounds, N ≤ rounds → ∃ y, (saveTree (Reader.streamDev (flawed fun x =>
        decide (start 0 ((caseTree b b').rows 0) 1 * 2 ≤ x ∧ x < start 0 ((caseTree b b').rows 0) 2 * 2))) rounds 4
        (Reader.new (InMemory.new (volume 0 ((caseTree b b').rows 0)) 512)) ()).2 = .ok y ∧
      savedAt y [[100], [103]] = some (.content b') ∧ savedAt y [[100], [104], [102]] = some (.content b) ∧
      savedAt y [[100], [120]] = some .missing := by
  have hf := caseTree_fits b b' hb hb'
  have ht := caseTree_rows b b'
  generalize (caseTree b b').rows 0 = t at hf ht
  have a1 : atPath t 0 [[100], [103]] = .content b' := by rw [ht]; rfl
  have a2 : atPath t 0 [[100], [104], [102]] = .content b := by rw [ht]; rfl
  have a3 : atPath t 0 [[100], [120]] = .missing := by rw [ht]; rfl
  have p1 : placesOn t 0 [[100], [103]] = [0, 3, 4] := by rw [ht]; rfl
  have p2 : placesOn t 0 [[100], [104], [102]] = [0, 3, 5, 6] := by rw [ht]; rfl
  have p3 : placesOn t 0 [[100], [120]] = [0, 3] := by rw [ht]; rfl
  clear ht
  obtain ⟨N, h⟩ := C127_one t hf 1 [[[100], [103]], [[100], [104], [102]], [[100], [120]]] (by
    intro names hn
    simp only [List.mem_cons, List.not_mem_nil, or_false] at hn
    rcases hn with rfl | rfl | rfl
    · exact ⟨by rw [a1]; exact fun h => (by cases h), by decide, by rw [p1]; decide⟩
    · exact ⟨by rw [a2]; exact fun h => (by cases h), by decide, by rw [p2]; decide⟩
    · exact ⟨by rw [a3]; exact fun h => (by cases h), by decide, by rw [p3]; decide⟩)
  refine ⟨N, fun rounds hr => ?_⟩
  obtain ⟨y, h1, h2⟩ := h rounds hr 4
  refine ⟨y, h1, ?_, ?_, ?_⟩
  · rw [← a1]
    exact h2 _ (by simp) (by decide)
  · rw [← a2]
    exact h2 _ (by simp) (by decide)
  · rw [← a3]
    exact h2 _ (by simp) (by decide)

end
end MdRecover
