import Verif.Lemmas.FrontList
import Verif.Props.Front

/-! C129: directories are usable up to the first block that cannot be read. -/

namespace MdRecover
open MdSpec Fixture

section
variable [Build]

/-- C129: on a device parts of which cannot be read, a program that lists a directory until there are no more entries
or a call fails obtains its entries from the beginning on, and those of as many blocks as can be read in front of the
first one that cannot; it is told that it has all only if it has, and if all can be read.  Of the directories on the
way to it, only the blocks up to the entry that is followed have to be readable. -/
theorem C129_list {W D : Type} {bad : Nat → Prop} {lim : Nat → Nat} {dev : StreamDev W D} {G : W → Prop}
    {Is : D → Bytes → Prop} {At : W → D → Nat → Prop} (hv : PatchyVolume bad lim dev G Is At) {c : Bytes}
    (hop : Ext4Openable c) (hl : c.length < 2 ^ 57) (hlim : c.length ≤ lim c.length) (w : W) (hG : G w) (d : D)
    (hI : Is d c) (names : List Bytes) (n : Nat) (records : List Bytes) (hn : Leads c CleanName 2 names n)
    (hd : DirectoryAt c n records) (hway : EntriesIntact bad c names n) :
    ∃ N q e, (∀ rounds, N ≤ rounds →
        (listFrontPath dev rounds d names w).2 = .ok (some (q.map DirEntry.mk, e))) ∧
      q <+: records ∧ (e = true → q = records) ∧
      (∀ m es, FrontIntact bad c n m → FrontRecords c n m es → es <+: q) ∧
      ((∀ m, FrontIntact bad c n m) → e = true) := by
  have hc : c.length < U64 := by omega
  have ha := hv.agree hc hlim
  have ho := patched_or dev At c
  have hI' : (fun d c' => c' = c ∧ Is d c) d c := ⟨rfl, hI⟩
  obtain ⟨w', fs, h1, hG', hopd⟩ := open_opened ha.perfect hG hI' hop hl
  have hb : TableChecked c := .inr (by have := hop.fits; omega)
  rw [← ha.openFs hG hI' hb hway.fs] at h1
  obtain ⟨w2, fs2, N1, hG2, ho2, h2⟩ := follow_entries ha ho hc hn hway.directories hG' hopd
  obtain ⟨N2, s', q, e, h3⟩ := followList_end ha ho hc hG2 ho2 hd hway.inode hway.nodes
  refine ⟨N1 + N2, q, e, fun rounds hr => ?_, (h3 N2 (Nat.le_refl _)).2⟩
  rw [listFrontPath, SM.bind_ok (h := h1)]
  show (followList dev rounds names 2 (w', fs)).2 = _
  rw [(h2 rounds (by omega)).2, (h3 rounds (by omega)).1]

/-- C129, a file: C128, with only the blocks up to the entry that is followed readable in the directories on the
way. -/
theorem C129_file {W D : Type} {bad : Nat → Prop} {lim : Nat → Nat} {dev : StreamDev W D} {G : W → Prop}
    {Is : D → Bytes → Prop} {At : W → D → Nat → Prop} (hv : PatchyVolume bad lim dev G Is At) {c : Bytes}
    (hop : Ext4Openable c) (hl : c.length < 2 ^ 57) (hlim : c.length ≤ lim c.length) (w : W) (hG : G w) (d : D)
    (hI : Is d c) (names : List Bytes) (n : Nat) (content : Bytes) (hn : Leads c CleanName 2 names n)
    (hf : FileAt c n content) (hway : EntriesIntact bad c names n) :
    ∃ N q e, (∀ rounds, N ≤ rounds → (readFrontPath dev rounds d names w).2 = .ok (some (q, e))) ∧
      q <+: content ∧ (e = true → q = content) ∧
      (∀ m, FrontIntact bad c n m → content.take (m * blockSizeOf (sbOf c)) <+: q) ∧
      ((∀ m, FrontIntact bad c n m) → e = true) := by
  have hc : c.length < U64 := by omega
  have ha := hv.agree hc hlim
  have ho := patched_or dev At c
  have hI' : (fun d c' => c' = c ∧ Is d c) d c := ⟨rfl, hI⟩
  obtain ⟨w', fs, h1, hG', hopd⟩ := open_opened ha.perfect hG hI' hop hl
  have hb : TableChecked c := .inr (by have := hop.fits; omega)
  rw [← ha.openFs hG hI' hb hway.fs] at h1
  obtain ⟨w2, fs2, N1, hG2, ho2, h2⟩ := follow_entries ha ho hc hn hway.directories hG' hopd
  obtain ⟨N2, s', q, e, h3⟩ := followFront_file ha ho hc hG2 ho2 hf hway.inode hway.nodes
  refine ⟨N1 + N2, q, e, fun rounds hr => ?_, (h3 N2 (Nat.le_refl _)).2⟩
  rw [readFrontPath, SM.bind_ok (h := h1)]
  show (followFront dev rounds names 2 (w', fs)).2 = _
  rw [(h2 rounds (by omega)).1, (h3 rounds (by omega)).1]

/-- C129, on a RAID6 array (as in C101): members with unreadable blocks, and with damage, in each sector on one member
at most. -/
theorem C129_array {W D : Type} {dev : BlockDev W D} {G : W → Prop} {Is : D → Disk → (Nat → Prop) → Prop}
    (hd : PatchyDev dev G Is) {ord : IterOrder} (hord : ord.Valid) {L n c size : Nat} {alg : Raid6Algorithm}
    {good members : Nat → Disk} {unreadable : Nat → Nat → Prop} {devices : List (MdDevice D)} {content : Bytes}
    (hL : Raid6Algorithm.fromLayout L = some alg)
    (hr : ReadableSet (fun d k => ∃ u, Is d k u) alg n c size members devices)
    (hu : ∀ d, d < n → ∀ x, SoleClaim devices x d → Is x.device (members d) (unreadable d))
    (hset : Raid6Set L n c size good content) (hdam : OneDamaged n size good members)
    (hop : Ext4Openable content) (hl : content.length < 2 ^ 57) (w : W) (hG : G w) (names : List Bytes) (i : Nat)
    (records : List Bytes) (hn : Leads content CleanName 2 names i) (hdir : DirectoryAt content i records) :
    let bad := fun x => Affected L n c good members (x / 512) ∨ StripeUnreadable n c members unreadable (x / 512)
    EntriesIntact bad content names i →
    ∃ N q e, (∀ rounds, N ≤ rounds → (listFrontPath (Reader.streamDev (MdArray.dev dev)) rounds
        (Reader.new (MdArray.open ord devices)) names w).2 = .ok (some (q.map DirEntry.mk, e))) ∧
      q <+: records ∧ (e = true → q = records) ∧
      (∀ m es, FrontIntact bad content i m → FrontRecords content i m es → es <+: q) ∧
      ((∀ m, FrontIntact bad content i m) → e = true) := by
  intro bad hway
  have ha := C101_array hd hord hL hr hu hset hdam
  exact C129_list (Reader.patchyVolume ha ⟨512, size * (n - 2), content⟩ _) hop hl (by simp only [noLimit]; omega) w hG
    _ ⟨rfl, 0, Reader.at_new (ha.wf ⟨rfl, rfl, rfl⟩) ⟨rfl, rfl, rfl⟩⟩ names i records hn hdir hway

end

namespace MkfsLemmas
open Mkfs
variable {k : Form} {t : List Node} {c tail : Bytes} (hc : c = volume k t ++ tail) (hf : Fits k t)
include hc hf

theorem frontRecords_volume {i : Nat} {es : List (Bytes × Nat)} (hi : t[i]? = some (.dir es)) (m : Nat) :
    FrontRecords c (i + 2) m ((es.take m).map (record k)) := by
  obtain ⟨b1, -, -⟩ := blocks_volume hc hf i _ hi
  obtain ⟨e1, e2⟩ := entries_volume hc hf i es hi
  unfold FrontRecords
  rw [blockSize_volume hc hf]
  refine ⟨_, _, seedOf k i, b1, e1, e2.imp fun _ _ h => h.2, ?_⟩
  rw [← List.map_take]
  generalize es.take m = l
  induction l with
  | nil => rfl
  | cons a l ih => rw [List.map_cons, List.map_cons, List.flatten_cons, ← ih]; rfl

theorem entryIntact_volume {bad : Nat → Prop} (hh : HeadIntact bad k t) {i : Nat} {before after : List (Bytes × Nat)}
    {e : Bytes × Nat} (hi : t[i]? = some (.dir (before ++ e :: after)))
    (hb : ∀ x, start k t i * bs k ≤ x → x < (start k t i + (before.length + 1)) * bs k → ¬ bad x) :
    EntryIntact bad c (i + 2) e.1 where
  inode := slotIntact_volume hc hf hh (List.getElem?_eq_some_iff.1 hi).1
  nodes := nodesIntact_volume hc hf (List.getElem?_eq_some_iff.1 hi).1
  entry := by
    have hv := entry_values hf _ (List.mem_of_getElem? hi) e (by simp)
    refine ⟨before.length + 1, _, record k e, frontIntact_volume hc hf (List.getElem?_eq_some_iff.1 hi).1 hb,
      frontRecords_volume hc hf hi _, ?_, ?_, hv.2.2.2.1⟩
    · exact List.mem_map.2 ⟨e, List.mem_of_getElem? (i := before.length) (by simp), rfl⟩
    · rw [hv.2.2.1]
      omega

theorem leads_clear {bad : Nat → Prop} {n : Nat} : ∀ {names : List Bytes} {i : Nat}, WayClear bad k t i names n →
    Leads c CleanName (i + 2) names (n + 2)
  | [], i, h => by
    have h : i = n := h
    subst h
    exact .here _
  | name :: names, i, ⟨before, e, after, hi, he, hb, _, hw⟩ => by
    have hm := List.mem_of_getElem? hi
    have hv := fun x hx => entry_values hf _ hm x hx
    have hve := hv e (by simp)
    have hd := directory_volume hc hf i _ hi
    rw [List.map_append, List.map_cons] at hd
    refine .into _ _ name names _ _ _ hd ⟨by rw [hve.2.2.1]; omega, hve.2.2.2.1.trans he⟩ ?_ ?_ ?_
    · intro x hx hN
      obtain ⟨y, hy, rfl⟩ := List.mem_map.1 hx
      exact hb y hy ((hv y (List.mem_append_left _ hy)).2.2.2.1.symm.trans hN.2)
    · intro x hx _
      rcases List.mem_append.1 hx with hx | hx
      · obtain ⟨y, hy, rfl⟩ := List.mem_map.1 hx
        exact (hv y (List.mem_append_left _ hy)).2.2.2.2
      · rw [List.mem_singleton.1 hx]
        exact hve.2.2.2.2
    · rw [hve.2.2.1]
      exact leads_clear hw

theorem directories_clear {bad : Nat → Prop} (hh : HeadIntact bad k t) {n : Nat} : ∀ {names : List Bytes} {i : Nat},
    WayClear bad k t i names n → ∀ front name rest m, names = front ++ name :: rest →
      Leads c CleanName (i + 2) front m → EntryIntact bad c m name
  | [], i, _, front, name, rest, m, heq, _ => by cases front <;> cases heq
  | nm :: names, i, ⟨before, e, after, hi, he, hb, hx, hw⟩, front, name, rest, m, heq, hl => by
    cases front with
    | nil =>
      cases heq
      cases hl
      rw [← he]
      exact entryIntact_volume hc hf hh hi hx
    | cons a front =>
      cases heq
      have hl0 := leads_clear hc hf (bad := fun _ => False) (n := e.2) (names := [nm]) (i := i)
        ⟨before, e, after, hi, he, hb, fun _ _ _ h => h, rfl⟩
      refine directories_clear hh hw front name rest m rfl ?_
      cases hl with
      | into _ _ _ _ before' after' e' hd' hn' hb' hcl' hl' =>
        have := leads_unique hl0 (.into _ _ _ _ before' after' e' hd' hn' hb' hcl' (.here _))
        rw [this]
        exact hl'

theorem entriesIntact_volume {bad : Nat → Prop} (hh : HeadIntact bad k t) {names : List Bytes} {n : Nat}
    (hw : WayClear bad k t 0 names n) (hn : n < t.length) : EntriesIntact bad c names (n + 2) where
  fs := fsIntact_volume hc hf hh
  directories := directories_clear hc hf hh hw
  inode := slotIntact_volume hc hf hh hn
  nodes := nodesIntact_volume hc hf hn

end MkfsLemmas

section
open Mkfs
variable [Build]

/-- C129, directories and files that were written: on a device with a volume written from a table of files (C123; one
entry in each block of a directory), some bytes of which cannot be read.  The program finds the entries in front of
what cannot be read, and goes on through them; the first `m` entries of a directory are listed, and the first `m`
blocks of a file read, if their blocks can be read. -/
theorem C129_written (k : Mkfs.Form) (t : List Node) (hf : Fits k t) (rest : Bytes)
    (hl : (volume k t ++ rest).length < 2 ^ 57) {W D : Type} {bad : Nat → Prop} {lim : Nat → Nat}
    {dev : StreamDev W D} {G : W → Prop} {Is : D → Bytes → Prop} {At : W → D → Nat → Prop}
    (hv : PatchyVolume bad lim dev G Is At)
    (hlim : (volume k t ++ rest).length ≤ lim (volume k t ++ rest).length) (hh : HeadIntact bad k t)
    (w : W) (d : D) (hG : G w) (hI : Is d (volume k t ++ rest)) (names : List Bytes) (n : Nat)
    (hw : WayClear bad k t 0 names n) :
    (∀ b, t[n]? = some (.file b) →
      ∃ N q e, (∀ rounds, N ≤ rounds → (readFrontPath dev rounds d names w).2 = .ok (some (q, e))) ∧
        q <+: b ∧ (e = true → q = b) ∧
        ∀ m, (∀ x, start k t n * bs k ≤ x → x < (start k t n + m) * bs k → ¬ bad x) → b.take (m * bs k) <+: q) ∧
    (∀ es, t[n]? = some (.dir es) →
      ∃ N q e, (∀ rounds, N ≤ rounds → ∃ l, (listFrontPath dev rounds d names w).2 = .ok (some (l, e)) ∧
          l.map (fun x => (x.name.bytes, x.inode)) = q) ∧
        q <+: es.map (fun x => (x.1, x.2 + 2)) ∧ (e = true → q = es.map (fun x => (x.1, x.2 + 2))) ∧
        ∀ m, (∀ x, start k t n * bs k ≤ x → x < (start k t n + m) * bs k → ¬ bad x) →
          (es.take m).map (fun x => (x.1, x.2 + 2)) <+: q) := by
  constructor
  · intro b hn
    have hn' := (List.getElem?_eq_some_iff.1 hn).1
    obtain ⟨N, q, e, h1, h2, h3, h4, -⟩ := C129_file hv (MkfsLemmas.openable_volume rfl hf) hl hlim w hG d hI names _ b
      (MkfsLemmas.leads_clear rfl hf hw) (MkfsLemmas.file_volume rfl hf n b hn)
      (MkfsLemmas.entriesIntact_volume rfl hf hh hw hn')
    refine ⟨N, q, e, h1, h2, h3, fun m hm => ?_⟩
    have := h4 m (MkfsLemmas.frontIntact_volume rfl hf hn' hm)
    rwa [MkfsLemmas.blockSize_volume rfl hf] at this
  · intro es hn
    have hn' := (List.getElem?_eq_some_iff.1 hn).1
    obtain ⟨N, q, e, h1, h2, h3, h4, -⟩ := C129_list hv (MkfsLemmas.openable_volume rfl hf) hl hlim w hG d hI names _ _
      (MkfsLemmas.leads_clear rfl hf hw) (MkfsLemmas.directory_volume rfl hf n es hn)
      (MkfsLemmas.entriesIntact_volume rfl hf hh hw hn')
    have hm := List.mem_of_getElem? hn
    have hval : ∀ l : List (Bytes × Nat), (∀ x ∈ l, x ∈ es) →
        ((l.map (record k)).map DirEntry.mk).map (fun x => (x.name.bytes, x.inode)) =
          l.map (fun x => (x.1, x.2 + 2)) := by
      intro l hl
      rw [List.map_map, List.map_map]
      refine List.map_congr_left fun x hx => ?_
      obtain ⟨-, v1, v2, v3, v4⟩ := MkfsLemmas.entry_values hf es hm x (hl x hx)
      show ((DirEntry.mk (record k x)).name.bytes, (DirEntry.mk (record k x)).inode) = _
      rw [entry_inode, v2, (C70_name_partial ⟨record k x⟩ v1).2 v4]
      exact congrArg (·, _) v3
    have hpre : ∀ {l l' : List Bytes}, l <+: l' →
        (l.map DirEntry.mk).map (fun x => (x.name.bytes, x.inode)) <+:
        (l'.map DirEntry.mk).map (fun x => (x.name.bytes, x.inode)) := by
      rintro l _ ⟨r, rfl⟩
      rw [List.map_append, List.map_append]
      exact List.prefix_append _ _
    refine ⟨N, (q.map DirEntry.mk).map (fun x => (x.name.bytes, x.inode)), e, fun rounds hr => ⟨_, h1 rounds hr, rfl⟩,
      ?_, fun he => ?_, fun m hb => ?_⟩
    · rw [← hval es fun _ h => h]
      exact hpre h2
    · rw [h3 he]
      exact hval es fun _ h => h
    · rw [← hval _ fun _ h => List.mem_of_mem_take h]
      exact hpre (h4 m _ (MkfsLemmas.frontIntact_volume rfl hf hn' hb) (MkfsLemmas.frontRecords_volume rfl hf hn m))

/-- C129, one sector: on a disk with blocks of 512 bytes one block cannot be read, in the second block of the root
directory.  The first entry is listed, and the file it leads to is read. -/
theorem C129_one (t : List Node) (hf : Fits 0 t) (e : Bytes × Nat) (es : List (Bytes × Nat)) (b : Bytes)
    (h0 : t[0]? = some (.dir (e :: es))) (he : 0 < e.2) (hn : t[e.2]? = some (.file b)) (hes : es ≠ []) :
    ∃ N, (∀ rounds, N ≤ rounds →
        ∃ a, (readFrontPath (Reader.streamDev (flawed fun x => decide (x = (start 0 t 0 + 1) * 2))) rounds
          (Reader.new (InMemory.new (volume 0 t) 512)) [e.1] ()).2 = .ok (some (b, a))) ∧
      ∀ rounds, N ≤ rounds →
        ∃ l a, (listFrontPath (Reader.streamDev (flawed fun x => decide (x = (start 0 t 0 + 1) * 2))) rounds
          (Reader.new (InMemory.new (volume 0 t) 512)) [] ()).2 = .ok (some (l, a)) ∧
        [(e.1, e.2 + 2)] <+: l.map (fun x => (x.name.bytes, x.inode)) := by
  have hbs : bs 0 = 1024 := rfl
  have hlen : (volume 0 t).length = total 0 t * 1024 := by rw [MkfsLemmas.length_volume hf.sizes, hbs]
  have htot := hf.total
  have hl : (volume 0 t ++ []).length < 2 ^ 57 := by
    rw [List.append_nil, hlen]
    omega
  have hpd := flawed_patchy fun x => decide (x = (start 0 t 0 + 1) * 2)
  have hq : total 0 t * 1024 / 512 = total 0 t * 2 := by omega
  have hd : InMemory.IsDisk (InMemory.new (volume 0 t) 512) ⟨512, total 0 t * 2, volume 0 t⟩ := by
    refine ⟨show 0 < 512 by decide, show 512 < U32 by decide, ?_, ?_⟩
    · show (volume 0 t).length < U64
      rw [hlen]
      show _ < 2 ^ 64
      omega
    · show _ = Disk.mk 512 ((volume 0 t).length / 512) ((volume 0 t).take ((volume 0 t).length / 512 * 512))
      rw [hlen, hq]
      congr 1
      exact (List.take_of_length_le (by rw [hlen]; omega)).symm
  have hlim : (volume 0 t ++ []).length ≤ noLimit (volume 0 t ++ []).length := by
    rw [List.append_nil, hlen]
    show _ ≤ U64
    omega
  have hh : HeadIntact (fun x => decide (x / 512 = (start 0 t 0 + 1) * 2) = true) 0 t := by
    intro x hx h3
    have h3 : x / 512 = (start 0 t 0 + 1) * 2 := of_decide_eq_true h3
    rw [hbs] at hx
    have h0 : start 0 t 0 = firstData 0 + 2 + tableBlocks 0 t := rfl
    omega
  have hfirst : ∀ x, start 0 t 0 * bs 0 ≤ x → x < (start 0 t 0 + 1) * bs 0 →
      ¬ (decide (x / 512 = (start 0 t 0 + 1) * 2) = true) := by
    intro x h1 h2 h3
    have h3 : x / 512 = (start 0 t 0 + 1) * 2 := of_decide_eq_true h3
    rw [hbs] at h2
    omega
  have hw := fun names n => C129_written 0 t hf [] hl
    (Reader.patchyVolume hpd ⟨512, total 0 t * 2, volume 0 t⟩ (fun x => decide (x = (start 0 t 0 + 1) * 2) = true)) hlim
    hh () (Reader.new (InMemory.new (volume 0 t) 512)) trivial (by
      rw [List.append_nil]
      exact ⟨rfl, 0, Reader.at_new (InMemory.devSpec.wf hd) ⟨hd, rfl⟩⟩) names n
  obtain ⟨N1, q, a, h1, h2, -, h4⟩ := (hw [e.1] e.2 ⟨[], e, es, h0, rfl, fun _ h => (by cases h), hfirst, rfl⟩).1 b hn
  obtain ⟨N2, q', a', h5, -, -, h7⟩ := (hw [] 0 rfl).2 _ h0
  have hqb : b = q := by
    have h8 := h4 (blocks 0 (.file b)) (by
      intro x h9 h10 h11
      have h11 : x / 512 = (start 0 t 0 + 1) * 2 := of_decide_eq_true h11
      rw [hbs] at h9 h10
      have h12 := MkfsLemmas.start_mono 0 t (show 1 ≤ e.2 by omega)
      have h13 := MkfsLemmas.start_succ (k := 0) h0
      have h14 := (MkfsLemmas.length_dir hf 0 _ h0).2
      rw [List.length_cons] at h14
      have h15 := List.length_pos_of_ne_nil hes
      rw [Nat.zero_add] at h13
      omega)
    rw [List.take_of_length_le (by
      show b.length ≤ (b.length + (1024 - 1)) / 1024 * 1024
      omega)] at h8
    exact h8.eq_of_length_le h2.length_le
  refine ⟨N1 + N2, fun rounds hr => ⟨a, by rw [h1 rounds (by omega), hqb]⟩, fun rounds hr => ?_⟩
  obtain ⟨l, h8, h9⟩ := h5 rounds (by omega)
  refine ⟨l, a', h8, ?_⟩
  rw [h9]
  exact h7 1 hfirst

/-- C129, a case: the tree of C125, with one sector of the second block of the root directory unreadable. -/
theorem C129_case (b b' : Bytes) (hb : b.length ≤ 2 ^ 24) (hb' : b'.length ≤ 2 ^ 24) :
    ∃ N, (∀ rounds, N ≤ rounds →
        ∃ a, (readFrontPath (Reader.streamDev (flawed fun x =>
          decide (x = (start 0 ((caseTree b b').rows 0) 0 + 1) * 2))) rounds
          (Reader.new (InMemory.new (volume 0 ((caseTree b b').rows 0)) 512)) [[102]] ()).2 = .ok (some (b, a))) ∧
      ∀ rounds, N ≤ rounds →
        ∃ l a, (listFrontPath (Reader.streamDev (flawed fun x =>
          decide (x = (start 0 ((caseTree b b').rows 0) 0 + 1) * 2))) rounds
          (Reader.new (InMemory.new (volume 0 ((caseTree b b').rows 0)) 512)) [] ()).2 = .ok (some (l, a)) ∧
        [([102], 3)] <+: l.map (fun x => (x.name.bytes, x.inode)) := by
  have hf := caseTree_fits b b' hb hb'
  have ht := caseTree_rows b b'
  generalize (caseTree b b').rows 0 = t at hf ht
  have h0 : t[0]? = some (.dir [([102], 1), ([101], 2), ([100], 3)]) := by rw [ht]; rfl
  have h1 : t[1]? = some (.file b) := by rw [ht]; rfl
  clear ht
  exact C129_one t hf ([102], 1) [([101], 2), ([100], 3)] b h0 (show 0 < 1 by decide) h1 (by simp)

end
end MdRecover
