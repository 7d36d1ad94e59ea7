import Verif.Lemmas.PathTrace
import Verif.Props.OpenTrace

/-! C108: what following a path asks the device for. -/

namespace MdRecover
open MdSpec

section
variable [Build]

/-- C108: on any device that holds the filesystem, with any failures and short reads, the program that follows a path
asks for the superblock and the group descriptors, and then, of each directory on the way, for its inode and its
blocks in their order, up to the block that holds the record of the next name, and at the end for all blocks of the file
(`Walk`): for nothing else.  If it fails, it has asked for a beginning of this; if it returns, for all of it.  The same
bound on its loops is enough for all devices. -/
theorem C108_path (c : Bytes) (hc : Ext4Openable c) (hl : c.length < 2 ^ 57) (names : List Bytes) (out : Found)
    (hs : Says c names out) :
    ∃ N, ∀ {W D : Type} {F : Prop} {lim : Nat → Nat} {dev : StreamDev W D} {G : W → Prop}
      {Is : D → Bytes → Prop} {At : W → D → Nat → Prop}, SeekableVolume F lim dev G Is At →
      (lim c.length = U64 ∨ (F ∧ lim c.length ≤ U64)) →
      ∀ (w : W) (d : D) (l : List Asked), G w → Is d c → ∀ rounds, N ≤ rounds →
      ∀ (s : W × List Asked) (r : Res Found), readPath (loggedDev dev) rounds d names (w, l) = (s, r) →
        (r = .ok out ∨ (F ∧ ∃ e, r = .err e)) ∧
        ∃ opened opening whole log, s.2 = l ++ opening ++ log ∧ OpeningAsks c opened opening ∧
          Walk c 2 names whole log ∧ (log ≠ [] → opened = true) ∧
          (r = .ok out → opened = true ∧ whole = true) := by
  obtain ⟨u, fs2, a1, -, ho2⟩ := open_opened InMemory.volumeSpec (c := c) (w := ()) (d := InMemory.new c 512) trivial
    rfl hc hl
  obtain ⟨N1, h1⟩ := follow_asked (by omega) (says_along hs) fs2 ho2
  obtain ⟨N2, h2⟩ := C98_failing_partial c hc hl names out hs
  refine ⟨N1 + N2, fun {W D F lim dev G Is At} hv hlim w d l hG hd rounds hr s r h => ⟨?_, ?_⟩⟩
  · have h3 := h2 (loggedDev_seekable hv) hlim (w, l) d hG hd rounds
    rw [h] at h3
    rcases h3 with h3 | h3 | ⟨h3, -⟩
    · exact .inl h3
    · exact .inr h3
    · omega
  have hb : TableChecked c := .inr (by have := hc.fits; omega)
  rcases e : Ext4Fs.open (loggedDev dev) d (w, l) with ⟨⟨w1, l1⟩, r1⟩
  obtain ⟨asked, b1, b2⟩ := C106_open hv.toVolumeSpec c hb w hG d hd l _ _ e
  have hstop : (∀ fs, r1 ≠ .ok fs) → l1 = s.2 ∧ r ≠ .ok out := by
    intro hno
    rcases r1 with fs | x | _
    · exact absurd rfl (hno fs)
    · rw [readPath, SM.bind_err (h := e)] at h
      cases h
      exact ⟨rfl, fun h => (by cases h)⟩
    · rw [readPath, SM.bind_panic (h := e)] at h
      cases h
      exact ⟨rfl, fun h => (by cases h)⟩
  by_cases hok : ∃ fs, r1 = .ok fs
  · obtain ⟨fs, rfl⟩ := hok
    rcases b2 with ⟨-, b2⟩ | ⟨-, -, reads, b3, b4, b5⟩
    · exact absurd rfl (b2 fs)
    have b3 : l1 = l ++ asked ++ .seek (.start (groupTableOf (sbOf c))) :: reads := b3
    rw [readPath_eq e] at h
    rcases Ext4Sim.open (loggedDev_seekable hv) InMemory.seekableVolume hlim (d2 := InMemory.new c 512) ⟨hd, rfl⟩ (w, l)
      () ⟨hG, trivial⟩ with ⟨t1, t2, x1, x2, e1, e2, h3, h4⟩ | ⟨t1, t2, x, e1, e2, -⟩ | ⟨t1, t2, e1, e2, -⟩ |
      ⟨hF, t1, x, e1, -⟩
    · rw [e] at e1
      rw [a1] at e2
      cases e1; cases e2
      have ho : Opened Is c fs := by
        obtain ⟨w', q, g1, -, g2⟩ := Ext4Fs.open_spec (loggedDev_spec hv.toVolumeSpec) (w := (w, l)) hG hd hb
        rw [e] at g1
        cases g1
        rcases g2 with ⟨fs', g2, g3, -⟩ | ⟨-, x, g2⟩ | ⟨-, g2⟩ <;> cases g2
        exact g3
      rcases g : follow (loggedDev dev) rounds names 2 ((w1, l1), fs) with ⟨s', r'⟩
      rw [g] at h
      obtain ⟨whole, log, k1, k2, k3⟩ := h1 rounds (by omega) hv hlim w1 l1 fs h4.1 ho h3 s' r' g
      cases h
      refine ⟨true, asked ++ .seek (.start (groupTableOf (sbOf c))) :: reads, whole, log, ?_, .groups true asked reads b1 b4 b5, k2,
        fun _ => rfl, fun hr => ⟨rfl, k3 ⟨out, hr⟩⟩⟩
      rw [← List.append_assoc l, ← b3]
      exact k1
    · rw [e] at e1; cases e1
    · rw [e] at e1; cases e1
    · rw [e] at e1; cases e1
  · have hno : ∀ fs, r1 ≠ .ok fs := fun fs h => hok ⟨fs, h⟩
    obtain ⟨c1, c2⟩ := hstop hno
    rcases b2 with ⟨b2, -⟩ | ⟨-, -, reads, b3, b4, b5⟩
    · exact ⟨false, asked, false, [], by rw [← c1, List.append_nil]; exact b2, .superblock asked b1, .before _ _,
        fun h => absurd rfl h, fun h => absurd h c2⟩
    · refine ⟨false, asked ++ .seek (.start (groupTableOf (sbOf c))) :: reads, false, [], ?_, .groups false asked reads b1 b4 b5,
        .before _ _, fun h => absurd rfl h, fun h => absurd h c2⟩
      rw [← c1, List.append_nil, ← List.append_assoc]
      exact b3

end

/-! ## A case -/

open Fixture

/-- The positions sought, in their order. -/
def sought (log : List Asked) : List Nat :=
  log.filterMap fun a => match a with
    | .seek (.start p) => some p
    | _ => none

theorem sought_append (a b : List Asked) : sought (a ++ b) = sought a ++ sought b := List.filterMap_append

theorem sought_reads {m : Nat} {reads : List Asked} (h : ∀ a ∈ reads, ∃ k n, a = Asked.read k n ∧ k ≤ m) :
    sought reads = [] := by
  unfold sought
  rw [List.filterMap_eq_nil_iff]
  intro a ha
  obtain ⟨k, n, rfl, -⟩ := h a ha
  rfl

theorem sought_asks {bs m : Nat} {xs : List Nat} {log : List Asked} (h : Asks bs m xs log) :
    sought log = xs.map (· * bs) := by
  induction h with
  | nil => rfl
  | cons x xs reads rest h1 _ _ ih =>
    rw [List.map_cons, ← ih, ← List.singleton_append, sought_append, sought_append, sought_reads h1]
    rfl

theorem sought_inode {c : Bytes} {n : Nat} {log : List Asked} (h : InodeAsks c n log) :
    sought log = [inodeSlot c n] := by
  obtain ⟨reads, rfl, h1, -⟩ := h
  rw [← List.singleton_append, sought_append, sought_reads h1]
  rfl

set_option maxRecDepth 100000 in
theorem small_slots : inodeSlot smallFs 2 = 3328 ∧ inodeSlot smallFs 3 = 3584 := by decide +kernel

variable [Build]

/-- The root directory of the small filesystem: its third record is that of "data", inode 3. -/
theorem small_root : ∃ w x y z, DirectoryAt smallFs 2 ([w, x] ++ y :: [z]) ∧ recordInode y = 3 ∧
    Names [100, 97, 116, 97] y ∧ (∀ e ∈ [w, x], ¬ Names [100, 97, 116, 97] e) ∧
    (∀ e ∈ [w, x] ++ [y], recordInode e ≠ 0 → CleanName e) := by
  obtain ⟨hr, hcl, -⟩ := root_names
  have hd := root_directory smallFs_like rfl rfl rfl
  obtain ⟨w, x, y, z, hl, hw, hx, hy, hz⟩ := split_four hr
  rw [hl] at hd hcl
  simp only [Prod.mk.injEq] at hw hx hy hz
  refine ⟨w, x, y, z, hd, hy.1, ⟨by omega, hy.2⟩, ?_, fun e he _ => hcl e (by
    simp only [List.cons_append, List.nil_append, List.mem_cons, List.not_mem_nil, or_false] at he ⊢
    rcases he with rfl | rfl | rfl <;> simp)⟩
  intro e he
  rintro ⟨-, h⟩
  simp only [List.mem_cons, List.not_mem_nil, or_false] at he
  rcases he with rfl | rfl
  · rw [hw.2] at h; cases h
  · rw [hx.2] at h; cases h

/-- The file "data" of the small filesystem. -/
theorem small_data : Says smallFs [[100, 97, 116, 97]] (.content ((smallFs.drop 8192).take 2500)) := by
  obtain ⟨w, x, y, z, hd, h3, hn, hb, hcl⟩ := small_root
  refine .content 3 _ (.into 2 3 _ _ [w, x] [z] y hd hn hb hcl ?_) file3
  rw [h3]
  exact .here 3

/-- C108, a case: reading "data" in the small filesystem, through a file-backed device that does not fail and gives
any short reads, seeks to the superblock, the group descriptor, the root inode, the block of the root directory, the
inode of the file, the block with its extents and its three blocks, and nowhere else. -/
theorem C108_case : ∃ N, ∀ rounds, N ≤ rounds → ∀ (K : Kernel) (d : FileDev), FileDev.Reliable (2 ^ 64 - 13312) K →
    d.content = smallFs → ∃ s : Kernel × List Asked,
      readPath (loggedDev FileDev.streamDev) rounds d [[100, 97, 116, 97]] (K, []) =
        (s, .ok (.content ((smallFs.drop 8192).take 2500))) ∧
      sought s.2 = [1024, 2048, 3328, 5120, 3584, 6144, 8192, 9216, 10240] := by
  have hlen := smallFs_length
  have hbs := smallFs_like.blockSize
  have hroot2 : rootNode smallFs 2 = root smallFs 2 := by decide +kernel
  have hroot3 : rootNode smallFs 3 = root smallFs 3 := by decide +kernel
  obtain ⟨s2, s3⟩ := small_slots
  obtain ⟨-, t3, -, -, -, t2, -⟩ := C75_case
  obtain ⟨w, x, y, z, hd, h3, hn, hb, -⟩ := small_root
  obtain ⟨N, h⟩ := C108_path smallFs fixture_openable.2 (by rw [hlen]; decide) _ _ small_data
  refine ⟨N, fun rounds hr K d hK hc => ?_⟩
  rcases e : readPath (loggedDev FileDev.streamDev) rounds d [[100, 97, 116, 97]] (K, []) with ⟨s, r⟩
  obtain ⟨h1, opened, opening, whole, log, h2, h4, h5, -, h6⟩ := h (FileDev.seekableVolume_reliable _)
    (.inl (by rw [hlen]; decide)) K d [] hK hc rounds hr s r e
  rcases h1 with rfl | ⟨h1, -⟩
  case inr => exact h1.elim
  obtain ⟨rfl, rfl⟩ := h6 rfl
  have ho : sought opening = [1024, 2048] := by
    cases h4 with
    | groups _ log reads g1 g2 g3 =>
    have e1 : sought (Asked.seek (SeekFrom.start (groupTableOf (sbOf smallFs))) :: reads) =
        groupTableOf (sbOf smallFs) :: sought reads := rfl
    rw [sought_append, sought_asks g1, e1, sought_reads g2]
    simp only [small_values.2.1]
    rfl
  have hw : sought log = [3328, 5120, 3584, 6144, 8192, 9216, 10240] := by
    cases h5 with
    | other _ _ _ _ g1 => exact absurd t2 (g1 (fun h => (by cases h)))
    | missing _ _ _ _ _ _ records _ _ g1 g2 =>
      rw [directoryAt_unique g1 hd] at g2
      exact absurd hn (g2 y (by simp))
    | into _ _ _ il blocks rest order front x' before after e0 _ g1 g2 g3 g3' g4 g5 g6 g7 =>
      obtain ⟨b1, b2, b3⟩ := g2
      rw [hbs, hroot2] at b1
      rw [hbs] at b3
      obtain rfl := C104_order_unique b1 _ order2
      have he : recordInode e0 = 3 := by
        have := leads_unique (P := fun _ => True) (.into 2 _ _ [] before after e0 g4 g5 g6 (fun _ _ _ => trivial) (.here _))
          (.into 2 _ _ [] [w, x] [z] y hd hn hb (fun _ _ _ => trivial) (.here _))
        rw [this, h3]
      clear g4 g5 g6 h
      have hrest : sought rest = [3584, 6144, 8192, 9216, 10240] := by
        generalize recordInode e0 = m at he g7
        cases g7 with
        | other _ _ _ _ _ k1 => exact absurd (he ▸ t3) (k1 rfl)
        | file _ il3 rest3 order3' _ k1 k2 =>
          subst he
          obtain ⟨c1, -, c3⟩ := k2
          rw [hbs, hroot3] at c1
          rw [hbs] at c3
          obtain rfl := C104_order_unique c1 _ order3
          rw [sought_append, sought_inode k1, s3, sought_asks c3]
          rfl
      have hx : front ++ [x'] = [5] := by
        rcases List.sublist_singleton.1 b2 with h | h
        · exact absurd h (by simp)
        · exact h
      rw [sought_append, sought_append, sought_inode g1, s2, sought_asks b3, hrest, hx]
      rfl
  refine ⟨s, rfl, ?_⟩
  rw [h2, List.nil_append, sought_append, ho, hw]
  rfl

end MdRecover
