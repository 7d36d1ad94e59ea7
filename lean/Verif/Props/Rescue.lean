import Verif.Lemmas.Rescue
import Verif.Props.FrontList
import Verif.Props.Salvage

/-! C130: a program that goes on after errors, and keeps what it read before them, saves all that can be read in front
of them. -/

namespace MdRecover
open MdSpec Fixture

section
variable [Build]

/-- C130, what is saved is there: the program that goes through a volume from the root on, goes on after errors, and
keeps what it read before them.  On a device with any volume that holds what it declares (C103), parts of which cannot
be read, it does not panic; it fails only if opening the filesystem fails; and what it returns is on the volume, at
each place: the content of the blocks of a file from the first one on, and all of it if it is marked so; the entries
of the blocks of a directory from the first one on, and all of them if it is marked so. -/
theorem C130_backed {W D : Type} {F : Prop} {dev : StreamDev W D} {G : W → Prop} {Is : D → Bytes → Prop}
    {At : W → D → Nat → Prop} (hv : VolumeSpec F dev G Is At) (c : Bytes) (hl : c.length < U64)
    (ht : TableChecked c) (hs : HoldsWhatItDeclares c) (w : W) (hG : G w) (d : D) (hd : Is d c)
    (rounds depth : Nat) :
    (∃ y, (rescueTree dev rounds depth d w).2 = .ok y ∧ Ext4Readable (sbOf c) ∧ RescuedFound c depth 2 y) ∨
      ((F ∨ ¬ Ext4Openable c) ∧ ∃ e, (rescueTree dev rounds depth d w).2 = .err e) := by
  obtain ⟨w', r, h1, hG', h2⟩ := Ext4Fs.open_spec hv hG hd ht
  rw [rescueTree]
  rcases h2 with ⟨fs, rfl, ho, -⟩ | ⟨hF, e, rfl⟩ | ⟨h, -⟩
  · rw [SM.bind_ok (h := h1)]
    obtain ⟨s', y, h3, -, h4⟩ := rescue_safe hv hl hs rounds depth 2 (w', fs) ⟨hG', ho⟩
    refine .inl ⟨y, ?_, ho.readable, h4⟩
    show (rescue dev rounds depth 2 (w', fs)).2 = _
    rw [h3]
  · rw [SM.bind_err (h := h1)]
    exact .inr ⟨hF.imp id And.left, e, rfl⟩
  · exact absurd h hs.opening

/-- The bounds for each of a list of paths. -/
theorem rescues_list {c : Bytes} (hop : Ext4Openable c) (hl : c.length < 2 ^ 57) (hs : HoldsWhatItDeclares c)
    (paths : List (List Bytes × Nat)) (hp : ∀ p ∈ paths, Leads c CleanName 2 p.1 p.2 ∧
      ((∃ content, FileAt c p.2 content) ∨ ∃ records, DirectoryAt c p.2 records) ∧ ∀ name ∈ p.1, isDots name = false) :
    ∃ N, ∀ p ∈ paths, ∀ {W D : Type} {bad : Nat → Prop} {lim : Nat → Nat} {dev : StreamDev W D} {G : W → Prop}
      {Is : D → Bytes → Prop} {At : W → D → Nat → Prop}, PatchyVolume bad lim dev G Is At →
      c.length ≤ lim c.length → lim c.length ≤ U64 → EntriesIntact bad c p.1 p.2 → ∀ rounds, N ≤ rounds →
      ∀ depth, p.1.length < depth → ∀ s : W × Ext4Fs D, (G s.1 ∧ Opened Is c s.2) →
        ∃ s' y z, rescue dev rounds depth 2 s = (s', .ok y) ∧ rescuedAt y p.1 = some z ∧ RescuedFront bad c p.2 z := by
  induction paths with
  | nil => exact ⟨0, fun p hp => absurd hp List.not_mem_nil⟩
  | cons p ps ih =>
    obtain ⟨N, h⟩ := ih fun q hq => hp q (List.mem_cons_of_mem _ hq)
    obtain ⟨h1, h2, h3⟩ := hp p List.mem_cons_self
    obtain ⟨N', h'⟩ := rescues_leads hop hl hs h1 h3 h2
    refine ⟨N + N', fun q hq {W D bad lim dev G Is At} hv hlim hlim2 hi rounds hr => ?_⟩
    rcases List.mem_cons.1 hq with rfl | hq
    · exact h' hv hlim hlim2 ⟨hi.directories, hi.inode, hi.nodes⟩ rounds (by omega)
    · exact h q hq hv hlim hlim2 hi rounds (by omega)

/-- C130, as much as can be read is saved: on a device some bytes of which cannot be read, among them none of the
superblock and the group descriptors, the program returns, and what it returns has, at the end of each path, the file
or the directory from its beginning up to the first block that cannot be read, and all of it if all of it can be
read.  For that, of the directories on the way the blocks up to the entry that is followed have to be readable, and
the inodes with the nodes of their extent trees: however much of the rest of the volume is damaged or cannot be read.
The same bound on the loops is enough for all devices. -/
theorem C130_complete (c : Bytes) (hop : Ext4Openable c) (hl : c.length < 2 ^ 57) (hs : HoldsWhatItDeclares c)
    (paths : List (List Bytes × Nat)) (hp : ∀ p ∈ paths, Leads c CleanName 2 p.1 p.2 ∧
      ((∃ content, FileAt c p.2 content) ∨ ∃ records, DirectoryAt c p.2 records) ∧ ∀ name ∈ p.1, isDots name = false) :
    ∃ N, ∀ {W D : Type} {bad : Nat → Prop} {lim : Nat → Nat} {dev : StreamDev W D} {G : W → Prop}
      {Is : D → Bytes → Prop} {At : W → D → Nat → Prop}, PatchyVolume bad lim dev G Is At →
      c.length ≤ lim c.length → lim c.length ≤ U64 → FsIntact bad c → ∀ (w : W) (d : D), G w → Is d c →
      ∀ rounds, N ≤ rounds → ∀ depth, ∃ y, (rescueTree dev rounds depth d w).2 = .ok y ∧
        ∀ p ∈ paths, EntriesIntact bad c p.1 p.2 → p.1.length < depth →
          ∃ z, rescuedAt y p.1 = some z ∧ RescuedFront bad c p.2 z := by
  obtain ⟨N, h⟩ := rescues_list hop hl hs paths hp
  refine ⟨N, fun {W D bad lim dev G Is At} hv hlim hlim2 hf w d hG hI rounds hr depth => ?_⟩
  have ha := hv.agree (by omega) hlim
  have hI' : (fun d c' => c' = c ∧ Is d c) d c := ⟨rfl, hI⟩
  obtain ⟨w', fs, h1, hG', ho⟩ := open_opened ha.perfect hG hI' hop hl
  have hb : TableChecked c := .inr (by have := hop.fits; omega)
  rw [← ha.openFs hG hI' hb hf] at h1
  obtain ⟨s', y, h2, -, -⟩ := rescue_safe hv.toVolumeSpec (by omega) hs rounds depth 2 (w', fs)
    ⟨hG', opened_same.1 ho⟩
  refine ⟨y, ?_, fun p hp hi hd => ?_⟩
  · rw [rescueTree, SM.bind_ok (h := h1)]
    show (rescue dev rounds depth 2 (w', fs)).2 = _
    rw [h2]
  · obtain ⟨s2, y2, z, h3, h4⟩ := h p hp hv hlim hlim2 hi rounds hr depth hd (w', fs) ⟨hG', opened_same.1 ho⟩
    rw [h2] at h3
    cases h3
    exact ⟨z, h4⟩

/-- C130, on a RAID6 array (as in C101): members with unreadable blocks, and with damage, in each sector on one member
at most. -/
theorem C130_array {content : Bytes} (hop : Ext4Openable content) (hl : content.length < 2 ^ 57)
    (hs : HoldsWhatItDeclares content) (paths : List (List Bytes × Nat))
    (hp : ∀ p ∈ paths, Leads content CleanName 2 p.1 p.2 ∧
      ((∃ b, FileAt content p.2 b) ∨ ∃ records, DirectoryAt content p.2 records) ∧ ∀ name ∈ p.1, isDots name = false) :
    ∃ N, ∀ {W D : Type} {dev : BlockDev W D} {G : W → Prop} {Is : D → Disk → (Nat → Prop) → Prop},
      PatchyDev dev G Is → ∀ {ord : IterOrder}, ord.Valid → ∀ {L n c size : Nat} {alg : Raid6Algorithm}
      {good members : Nat → Disk} {unreadable : Nat → Nat → Prop} {devices : List (MdDevice D)},
      Raid6Algorithm.fromLayout L = some alg →
      ReadableSet (fun d k => ∃ u, Is d k u) alg n c size members devices →
      (∀ d, d < n → ∀ x, SoleClaim devices x d → Is x.device (members d) (unreadable d)) →
      Raid6Set L n c size good content → OneDamaged n size good members →
      let bad := fun x => Affected L n c good members (x / 512) ∨ StripeUnreadable n c members unreadable (x / 512)
      FsIntact bad content → ∀ w, G w → ∀ rounds, N ≤ rounds → ∀ depth,
        ∃ y, (rescueTree (Reader.streamDev (MdArray.dev dev)) rounds depth
          (Reader.new (MdArray.open ord devices)) w).2 = .ok y ∧
          ∀ p ∈ paths, EntriesIntact bad content p.1 p.2 → p.1.length < depth →
            ∃ z, rescuedAt y p.1 = some z ∧ RescuedFront bad content p.2 z := by
  obtain ⟨N, h⟩ := C130_complete content hop hl hs paths hp
  refine ⟨N, fun {W D dev G Is} hd {ord} hord {L n c size alg good members unreadable devices} hL hr hu hset hdam => ?_⟩
  intro bad hf w hG rounds hn depth
  have ha := C101_array hd hord hL hr hu hset hdam
  exact h (Reader.patchyVolume ha ⟨512, size * (n - 2), content⟩ _) (by simp only [noLimit]; omega)
    (by simp only [noLimit]; omega) hf w _ hG ⟨rfl, 0, Reader.at_new (ha.wf ⟨rfl, rfl, rfl⟩) ⟨rfl, rfl, rfl⟩⟩
    rounds hn depth

end

section
open Mkfs

/-- What was saved at the end of a path to place `n` of a table of files, on a volume written from it. -/
def RescuedNode (bad : Nat → Prop) (k : Mkfs.Form) (t : List Node) (n : Nat) : Option Rescued → Prop
  | some (.file q all) => ∃ b, t[n]? = some (.file b) ∧ q <+: b ∧ (all = true → q = b) ∧
      ∀ m, (∀ x, start k t n * bs k ≤ x → x < (start k t n + m) * bs k → ¬ bad x) → b.take (m * bs k) <+: q
  | some (.dir ys all) => ∃ es, t[n]? = some (.dir es) ∧
      ys.map (·.1) <+: (es.map (·.1)).filter (!isDots ·) ∧ (all = true → ys.map (·.1) = (es.map (·.1)).filter (!isDots ·)) ∧
      ∀ m, (∀ x, start k t n * bs k ≤ x → x < (start k t n + m) * bs k → ¬ bad x) →
        ((es.take m).map (·.1)).filter (!isDots ·) <+: ys.map (·.1)
  | _ => False

theorem fileAt_unique {c : Bytes} {n : Nat} {b b' : Bytes} (h : FileAt c n b) (h' : FileAt c n b') : b = b' := by
  obtain ⟨xs, hx, -, -, -, -, rfl⟩ := h.blocks
  obtain ⟨ys, hy, -, -, -, -, rfl⟩ := h'.blocks
  rw [contiguous_unique hx hy]

variable [Build]

/-- C130, files and directories that were written: on a device with a volume written from a table of files (C123),
some bytes of which cannot be read, none of them in front of the files.  The program saves the first `m` blocks of
each file, and the first `m` entries of each directory, if their blocks can be read, and the blocks of the directories
on the way up to the entries that are followed. -/
theorem C130_written (k : Mkfs.Form) (t : List Node) (hf : Fits k t) (rest : Bytes)
    (hl : (volume k t ++ rest).length < 2 ^ 57) (paths : List (List Bytes × Nat))
    (hp : ∀ p ∈ paths, WayClear (fun _ => False) k t 0 p.1 p.2 ∧
      ((∃ b, t[p.2]? = some (.file b)) ∨ ∃ es, t[p.2]? = some (.dir es)) ∧ ∀ name ∈ p.1, isDots name = false) :
    ∃ N, ∀ {W D : Type} {bad : Nat → Prop} {lim : Nat → Nat} {dev : StreamDev W D} {G : W → Prop}
      {Is : D → Bytes → Prop} {At : W → D → Nat → Prop}, PatchyVolume bad lim dev G Is At →
      (volume k t ++ rest).length ≤ lim (volume k t ++ rest).length → lim (volume k t ++ rest).length ≤ U64 →
      HeadIntact bad k t → ∀ (w : W) (d : D), G w → Is d (volume k t ++ rest) →
      ∀ rounds, N ≤ rounds → ∀ depth, ∃ y, (rescueTree dev rounds depth d w).2 = .ok y ∧
        ∀ p ∈ paths, WayClear bad k t 0 p.1 p.2 → p.1.length < depth → RescuedNode bad k t p.2 (rescuedAt y p.1) := by
  obtain ⟨N, h⟩ := C130_complete (volume k t ++ rest) (MkfsLemmas.openable_volume rfl hf) hl
    (MkfsLemmas.holds_volume rfl hf).1 (paths.map fun p => (p.1, p.2 + 2)) (by
      intro p hm
      obtain ⟨q, hq, rfl⟩ := List.mem_map.1 hm
      obtain ⟨h1, h2, h3⟩ := hp q hq
      exact ⟨MkfsLemmas.leads_clear rfl hf h1, h2.imp (fun ⟨b, hb⟩ => ⟨b, MkfsLemmas.file_volume rfl hf _ b hb⟩)
        fun ⟨es, hes⟩ => ⟨_, MkfsLemmas.directory_volume rfl hf _ es hes⟩, h3⟩)
  refine ⟨N, fun {W D bad lim dev G Is At} hv hlim hlim2 hh w d hG hI rounds hr depth => ?_⟩
  obtain ⟨y, h1, h2⟩ := h hv hlim hlim2 (MkfsLemmas.fsIntact_volume rfl hf hh) w d hG hI rounds hr depth
  refine ⟨y, h1, fun p hm hw hd => ?_⟩
  have hn : p.2 < t.length := by
    rcases (hp p hm).2.1 with ⟨b, hb⟩ | ⟨b, hb⟩ <;> exact (List.getElem?_eq_some_iff.1 hb).1
  obtain ⟨z, h3, h4⟩ := h2 (p.1, p.2 + 2) (List.mem_map_of_mem hm) (MkfsLemmas.entriesIntact_volume rfl hf hh hw hn) hd
  rw [h3]
  rcases (hp p hm).2.1 with ⟨b, hb⟩ | ⟨es, hes⟩
  · have hfile := MkfsLemmas.file_volume (tail := rest) rfl hf _ b hb
    match z, h4 with
    | .file q all, ⟨b', g1, g2, g3, g4, _⟩ =>
      obtain rfl := fileAt_unique hfile g1
      refine ⟨b, hb, g2, g3, fun m hm => ?_⟩
      have := g4 m (MkfsLemmas.frontIntact_volume rfl hf hn hm)
      rwa [MkfsLemmas.blockSize_volume rfl hf] at this
    | .dir ys all, ⟨records, q, g1, _⟩ =>
      have := hfile.type.symm.trans g1.type
      cases this
  · have hdir := MkfsLemmas.directory_volume (tail := rest) rfl hf _ es hes
    match z, h4 with
    | .file q all, ⟨b', g1, _⟩ =>
      have := hdir.type.symm.trans g1.type
      cases this
    | .dir ys all, ⟨records, q, g1, g2, g3, g4, g5, _⟩ =>
      obtain rfl := directoryAt_unique hdir g1
      have hmem := List.mem_of_getElem? hes
      have hval : ∀ l : List (Bytes × Nat), (∀ x ∈ l, x ∈ es) →
          ((l.map (record k)).filter isShown).map shownName = (l.map (·.1)).filter (!isDots ·) := by
        intro l hl
        induction l with
        | nil => rfl
        | cons x l ih =>
          obtain ⟨-, v1, v2, v3, v4⟩ := MkfsLemmas.entry_values hf es hmem x (hl x List.mem_cons_self)
          have hsn : shownName (record k x) = x.1 := by
            rw [← entry_name, (C70_name_partial ⟨record k x⟩ v1).2 v4]
            exact v3
          have hsh : isShown (record k x) = !isDots x.1 := by
            unfold isShown
            rw [hsn, v2]
            simp
          rw [List.map_cons, List.map_cons, List.filter_cons, List.filter_cons, hsh]
          have ih := ih fun y hy => hl y (List.mem_cons_of_mem _ hy)
          split
          · rw [List.map_cons, ih, hsn]
          · exact ih
      have hpre : ∀ {l l' : List Bytes}, l <+: l' →
          (l.filter isShown).map shownName <+: (l'.filter isShown).map shownName := by
        rintro l _ ⟨r, rfl⟩
        rw [List.filter_append, List.map_append]
        exact List.prefix_append _ _
      refine ⟨es, hes, ?_, fun he => ?_, fun m hm => ?_⟩
      · rw [g2, ← hval es fun _ h => h]
        exact hpre g3
      · rw [g2, ← hval es fun _ h => h, g4 he]
      · rw [g2, ← hval _ fun _ h => List.mem_of_mem_take h]
        exact hpre (g5 m _ (MkfsLemmas.frontIntact_volume rfl hf hn hm) (MkfsLemmas.frontRecords_volume rfl hf hes m))

/-- C130, any blocks: on a disk with blocks of 512 bytes any blocks may be unreadable that are not in front of the
files. -/
theorem C130_disk (t : List Node) (hf : Fits 0 t) (paths : List (List Bytes × Nat))
    (hp : ∀ p ∈ paths, WayClear (fun _ => False) 0 t 0 p.1 p.2 ∧
      ((∃ b, t[p.2]? = some (.file b)) ∨ ∃ es, t[p.2]? = some (.dir es)) ∧ ∀ name ∈ p.1, isDots name = false) :
    ∃ N, ∀ bad : Nat → Bool, (∀ x, x < start 0 t 0 * 2 → bad x = false) → ∀ rounds, N ≤ rounds → ∀ depth,
      ∃ y, (rescueTree (Reader.streamDev (flawed bad)) rounds depth
        (Reader.new (InMemory.new (volume 0 t) 512)) ()).2 = .ok y ∧
      ∀ p ∈ paths, WayClear (fun x => bad (x / 512) = true) 0 t 0 p.1 p.2 → p.1.length < depth →
        RescuedNode (fun x => bad (x / 512) = true) 0 t p.2 (rescuedAt y p.1) := by
  have hbs : bs 0 = 1024 := rfl
  have hlen : (volume 0 t).length = total 0 t * 1024 := by rw [MkfsLemmas.length_volume hf.sizes, hbs]
  have htot := hf.total
  have hl : (volume 0 t ++ []).length < 2 ^ 57 := by
    rw [List.append_nil, hlen]
    omega
  obtain ⟨N, h⟩ := C130_written 0 t hf [] hl paths hp
  rw [List.append_nil] at h
  have hq : total 0 t * 1024 / 512 = total 0 t * 2 := by omega
  have hd : InMemory.IsDisk (InMemory.new (volume 0 t) 512) ⟨512, total 0 t * 2, volume 0 t⟩ := by
    refine ⟨show 0 < 512 by decide, show 512 < U32 by decide, ?_, ?_⟩
    · show (volume 0 t).length < U64
      rw [hlen]
      show _ < 2 ^ 64
      omega
    · show _ = Disk.mk 512 ((volume 0 t).length / 512) ((volume 0 t).take ((volume 0 t).length / 512 * 512))
      rw [hlen, hq]
      congr 1
      exact (List.take_of_length_le (by rw [hlen]; omega)).symm
  refine ⟨N, fun bad hbad rounds hr depth => ?_⟩
  refine h (Reader.patchyVolume (flawed_patchy bad) ⟨512, total 0 t * 2, volume 0 t⟩ (fun x => bad x = true)) ?_ ?_ ?_ ()
    _ trivial ⟨rfl, 0, Reader.at_new (InMemory.devSpec.wf hd) ⟨hd, rfl⟩⟩ rounds hr depth
  · rw [hlen]
    show _ ≤ U64
    omega
  · exact Nat.le_refl U64
  · intro x hx h3
    have h0 : start 0 t 0 = firstData 0 + 2 + tableBlocks 0 t := rfl
    rw [hbs] at hx
    have h3 : bad (x / 512) = true := h3
    rw [hbad (x / 512) (by omega)] at h3
    cases h3

/-- C130, a case: the tree of C125, with two sectors unreadable, in the second block of the file `f` of the root
directory and in the second block of the directory `d`.  The first block of `f` is saved, and all of the file `d/g`,
whose entry is in the first block of `d`. -/
theorem C130_case (b b' : Bytes) (hb : b.length ≤ 2 ^ 24) (hb' : b'.length ≤ 2 ^ 24) (hb1 : 1024 < b.length) :
    ∃ N, ∀ rounds, N ≤ rounds → ∃ y, (rescueTree (Reader.streamDev (flawed fun x =>
        decide (x = (start 0 ((caseTree b b').rows 0) 1 + 1) * 2 ∨ x = (start 0 ((caseTree b b').rows 0) 3 + 1) * 2)))
        rounds 4 (Reader.new (InMemory.new (volume 0 ((caseTree b b').rows 0)) 512)) ()).2 = .ok y ∧
      (∃ q e, rescuedAt y [[102]] = some (.file q e) ∧ b.take 1024 <+: q ∧ q <+: b) ∧
      (∃ e, rescuedAt y [[100], [103]] = some (.file b' e)) ∧
      ∃ ys e, rescuedAt y [[100]] = some (.dir ys e) ∧ [[103]] <+: ys.map (·.1) := by
  have hf := caseTree_fits b b' hb hb'
  have ht := caseTree_rows b b'
  generalize (caseTree b b').rows 0 = t at hf ht
  have h0 : t[0]? = some (.dir [([102], 1), ([101], 2), ([100], 3)]) := by rw [ht]; rfl
  have h1 : t[1]? = some (.file b) := by rw [ht]; rfl
  have h2 : t[2]? = some (.dir []) := by rw [ht]; rfl
  have h3 : t[3]? = some (.dir [([103], 4), ([104], 5)]) := by rw [ht]; rfl
  have h4 : t[4]? = some (.file b') := by rw [ht]; rfl
  clear ht
  have s1 := MkfsLemmas.start_succ (k := 0) h0
  have s2 := MkfsLemmas.start_succ (k := 0) h1
  have s3 := MkfsLemmas.start_succ (k := 0) h2
  have s4 := MkfsLemmas.start_succ (k := 0) h3
  have e0 : blocks 0 (.dir [([102], 1), ([101], 2), ([100], 3)]) = 3 := by decide +kernel
  have e1 : blocks 0 (.file b) = (b.length + 1023) / 1024 := rfl
  have e2 : blocks 0 (.dir []) = 0 := by decide +kernel
  have e3 : blocks 0 (.dir [([103], 4), ([104], 5)]) = 2 := by decide +kernel
  rw [e0] at s1
  rw [e1] at s2
  rw [e2] at s3
  rw [e3] at s4
  clear e0 e1 e2 e3
  norm_num only at s1 s2 s3 s4
  have hbs : bs 0 = 1024 := rfl
  have way1 : ∀ bad : Nat → Prop, (∀ x, start 0 t 0 * 1024 ≤ x → x < (start 0 t 0 + 3) * 1024 → ¬ bad x) →
      WayClear bad 0 t 0 [[102]] 1 := by
    intro bad h
    refine ⟨[], ([102], 1), [([101], 2), ([100], 3)], h0, rfl, fun _ h => (by cases h), fun x g1 g2 => h x g1 ?_, rfl⟩
    exact lt_of_lt_of_le g2 (Nat.mul_le_mul_right 1024 (Nat.add_le_add_left (show 0 + 1 ≤ 3 by decide) _))
  have way3 : ∀ bad : Nat → Prop, (∀ x, start 0 t 0 * 1024 ≤ x → x < (start 0 t 0 + 3) * 1024 → ¬ bad x) →
      WayClear bad 0 t 0 [[100]] 3 := by
    intro bad h
    exact ⟨[([102], 1), ([101], 2)], ([100], 3), [], h0, rfl, by decide, h, rfl⟩
  have way4 : ∀ bad : Nat → Prop, (∀ x, start 0 t 0 * 1024 ≤ x → x < (start 0 t 0 + 3) * 1024 → ¬ bad x) →
      (∀ x, start 0 t 3 * 1024 ≤ x → x < (start 0 t 3 + 1) * 1024 → ¬ bad x) →
      WayClear bad 0 t 0 [[100], [103]] 4 := by
    intro bad h h'
    exact ⟨[([102], 1), ([101], 2)], ([100], 3), [], h0, rfl, by decide, h,
      [], ([103], 4), [([104], 5)], h3, rfl, fun _ h => (by cases h), h', rfl⟩
  obtain ⟨N, h⟩ := C130_disk t hf [([[102]], 1), ([[100], [103]], 4), ([[100]], 3)] (by
    intro p hp
    simp only [List.mem_cons, List.not_mem_nil, or_false] at hp
    rcases hp with rfl | rfl | rfl
    · exact ⟨way1 _ fun _ _ _ h => h, .inl ⟨b, h1⟩, by decide⟩
    · exact ⟨way4 _ (fun _ _ _ h => h) fun _ _ _ h => h, .inl ⟨b', h4⟩, by decide⟩
    · exact ⟨way3 _ fun _ _ _ h => h, .inr ⟨_, h3⟩, by decide⟩)
  refine ⟨N, fun rounds hr => ?_⟩
  obtain ⟨y, g1, g2⟩ := h (fun x => decide (x = (start 0 t 1 + 1) * 2 ∨ x = (start 0 t 3 + 1) * 2)) (fun x hx => by
    rw [decide_eq_false_iff_not]
    omega) rounds hr 4
  have hout : ∀ {x : Nat}, decide (x / 512 = (start 0 t 1 + 1) * 2 ∨ x / 512 = (start 0 t 3 + 1) * 2) = true →
      x / 512 = (start 0 t 1 + 1) * 2 ∨ x / 512 = (start 0 t 3 + 1) * 2 := fun h => of_decide_eq_true h
  have hroot : ∀ x, start 0 t 0 * 1024 ≤ x → x < (start 0 t 0 + 3) * 1024 →
      ¬ (decide (x / 512 = (start 0 t 1 + 1) * 2 ∨ x / 512 = (start 0 t 3 + 1) * 2) = true) := by
    intro x a1 a2 a3
    have a3 := hout a3
    omega
  have hdir : ∀ x, start 0 t 3 * 1024 ≤ x → x < (start 0 t 3 + 1) * 1024 →
      ¬ (decide (x / 512 = (start 0 t 1 + 1) * 2 ∨ x / 512 = (start 0 t 3 + 1) * 2) = true) := by
    intro x a1 a2 a3
    have a3 := hout a3
    omega
  have r1 := g2 ([[102]], 1) (by simp) (way1 _ hroot) (by decide)
  have r4 := g2 ([[100], [103]], 4) (by simp) (way4 _ hroot hdir) (by decide)
  have r3 := g2 ([[100]], 3) (by simp) (way3 _ hroot) (by decide)
  refine ⟨y, g1, ?_, ?_, ?_⟩
  · match hz : rescuedAt y [[102]], r1 with
    | some (.file q all), ⟨c, a1, a2, _, a4⟩ =>
      rw [h1] at a1
      cases a1
      refine ⟨q, all, rfl, ?_, a2⟩
      have := a4 1 (by
        intro x i1 i2 i3
        have i3 := hout i3
        rw [hbs] at i1 i2
        dsimp only at i1 i2
        omega)
      rwa [hbs, Nat.one_mul] at this
    | some (.dir ys all), ⟨c, a1, _⟩ => rw [h1] at a1; cases a1
  · match hz : rescuedAt y [[100], [103]], r4 with
    | some (.file q all), ⟨c, a1, a2, _, a4⟩ =>
      rw [h4] at a1
      cases a1
      have := a4 (b'.length + 1) (by
        intro x i1 i2 i3
        have i3 := hout i3
        rw [hbs] at i1 i2
        dsimp only at i1 i2
        omega)
      rw [hbs, List.take_of_length_le (by omega)] at this
      exact ⟨all, by rw [this.eq_of_length_le a2.length_le]⟩
    | some (.dir ys all), ⟨c, a1, _⟩ => rw [h4] at a1; cases a1
  · match hz : rescuedAt y [[100]], r3 with
    | some (.dir ys all), ⟨c, a1, _, _, a4⟩ =>
      rw [h3] at a1
      cases a1
      exact ⟨ys, all, rfl, a4 1 hdir⟩
    | some (.file q all), ⟨c, a1, _⟩ => rw [h3] at a1; cases a1

end
end MdRecover
