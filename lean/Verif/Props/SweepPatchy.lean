import Verif.Lemmas.SweepPatchy
import Verif.Props.SweepFailing
import Verif.Props.RescueDisks

/-! C136: damaged directories on devices parts of which cannot be read: what can be reached is found. -/

namespace MdRecover
open MdSpec Fixture Mkfs

section
variable [Build]

omit [Build] in
/-- One bound for all places of a table. -/
theorem bound_all {Q : Nat → Nat → Prop} (h : ∀ n, ∃ N, ∀ R, N ≤ R → Q n R) :
    ∀ m, ∃ N, ∀ n, n < m → ∀ R, N ≤ R → Q n R := by
  intro m
  induction m with
  | zero => exact ⟨0, fun n hn => absurd hn (Nat.not_lt_zero n)⟩
  | succ m ih =>
    obtain ⟨N, hN⟩ := ih
    obtain ⟨N', hN'⟩ := h m
    refine ⟨N + N', fun n hn R hR => ?_⟩
    rcases Nat.lt_succ_iff_lt_or_eq.1 hn with h | rfl
    · exact hN n h R (by omega)
    · exact hN' R (by omega)

/-- C136: on a device with a volume written from a table of files, some blocks of whose directories were damaged
later, and some bytes of which cannot be read, none of them in front of the files and directories.  The program that
goes through the volume from the root on, and reads on past errors, returns; what it returns is in the table (C135);
and it has each file, with all its bytes, that a path leads to by entries that are not in damaged blocks, if the
blocks of the file and of the directories on the way can be read: whatever else cannot be read.  The same bound on
the loops is enough for all devices, all depths and all files. -/
theorem C136_complete (k : Mkfs.Form) (hu : k.uuid.isSome) (t : List Node) (hf : Fits k t) (ht : DistinctNames t)
    (rest c : Bytes) (hd : DirectoriesDamaged k t (volume k t ++ rest) c) (hl : c.length < 2 ^ 57) :
    ∃ N, ∀ {W D : Type} {bad : Nat → Prop} {lim : Nat → Nat} {dev : StreamDev W D} {G : W → Prop}
      {Is : D → Bytes → Prop} {At : W → D → Nat → Prop}, PatchyVolume bad lim dev G Is At → lim c.length = U64 →
      HeadIntact bad k t → ∀ (w : W) (d : D), G w → Is d c → ∀ rounds, N ≤ rounds → ∀ depth,
        ∃ y, (sweepTree dev rounds depth d w).2 = .ok y ∧
          SweptWithin t (damagedBlock k t (volume k t ++ rest) c) depth 0 y ∧
          ∀ names m b, names.length < depth → t[m]? = some (.file b) →
            ReachesReadable bad k t (damagedBlock k t (volume k t ++ rest) c) 0 names m →
            sweptAt y names = some (.file b) := by
  have hc : c.length < U64 := by show _ < 2 ^ 64; omega
  have hop := MkfsLemmas.openable_damaged rfl hf hd
  obtain ⟨N1, hN1⟩ := bound_all (Q := fun n rounds => ∀ b, t[n]? = some (.file b) →
      ∀ {W D : Type} {bad : Nat → Prop} {lim : Nat → Nat} {dev : StreamDev W D} {G : W → Prop}
        {Is : D → Bytes → Prop} {At : W → D → Nat → Prop}, PatchyVolume bad lim dev G Is At → lim c.length = U64 →
        InodeIntact bad c (n + 2) → ∀ depth, ∀ s : W × Ext4Fs D, (G s.1 ∧ Opened Is c s.2) →
          ∃ s', sweep dev rounds (depth + 1) (n + 2) s = (s', .ok (.file b))) (by
    intro n
    rcases hn : t[n]? with _ | b | es
    · exact ⟨0, fun _ _ b h => nomatch h⟩
    · obtain ⟨N, h⟩ := MkfsLemmas.sweep_file rfl hf hd hl hn
      refine ⟨N, fun R hR b' hb' => ?_⟩
      cases hb'
      exact fun hv hlim hi depth s hs => h hv hlim hi R hR depth s hs
    · exact ⟨0, fun _ _ b h => nomatch h⟩) t.length
  obtain ⟨N2, hN2⟩ := bound_all (Q := fun n rounds => ∀ es, t[n]? = some (.dir es) →
      ∀ {W D : Type} {bad : Nat → Prop} {lim : Nat → Nat} {dev : StreamDev W D} {G : W → Prop}
        {Is : D → Bytes → Prop} {At : W → D → Nat → Prop}, PatchyVolume bad lim dev G Is At → lim c.length = U64 →
        InodeIntact bad c (n + 2) → ∀ depth, ∀ s : W × Ext4Fs D, (G s.1 ∧ Opened Is c s.2) →
        ∃ s' ys e, sweep dev rounds (depth + 1) (n + 2) s = (s', .ok (.dir ys e)) ∧
          List.Forall₂ (fun (e : (Bytes × Nat) × Nat) (y : Bytes × Swept) => e.1.1 = y.1 ∧
              ∃ u u', (G u.1 ∧ Opened Is c u.2) ∧ sweep dev rounds depth (e.1.2 + 2) u = (u', .ok y.2))
            (es.zipIdx.filter fun e => !damagedBlock k t (volume k t ++ rest) c n e.2 && !isDots e.1.1) ys) (by
    intro n
    rcases hn : t[n]? with _ | b | es
    · exact ⟨0, fun _ _ b h => nomatch h⟩
    · exact ⟨0, fun _ _ b h => nomatch h⟩
    · obtain ⟨N, h⟩ := MkfsLemmas.sweep_directory rfl hf hd hl hu hn
      refine ⟨N, fun R hR es' hes' => ?_⟩
      cases hes'
      exact fun hv hlim hi depth s hs => h hv hlim hi R hR depth s hs) t.length
  refine ⟨N1 + N2, fun {W D bad lim dev G Is At} hv hlim hh w d hG hI rounds hr depth => ?_⟩
  have hag := hv.agree hc (by omega)
  have hI' : (fun d c' => c' = c ∧ Is d c) d c := ⟨rfl, hI⟩
  obtain ⟨w', fs, h1, hG', ho⟩ := open_opened hag.perfect hG hI' hop hl
  have hb : TableChecked c := .inr (by have := hop.fits; show _ < 2 ^ 64; omega)
  rw [← hag.openFs hG hI' hb (MkfsLemmas.fsIntact_damaged rfl hf hd hh)] at h1
  have ho := opened_same.1 ho
  obtain ⟨s', y, h2, -, h3⟩ := MkfsLemmas.sweep_within rfl hf hd hv.toVolumeSpec hc hu rounds depth 0 hf.root (w', fs)
    ⟨hG', ho⟩
  refine ⟨y, ?_, h3, fun names m b hdep hm hreach => ?_⟩
  · rw [sweepTree, SM.bind_ok (h := h1)]
    show (sweep dev rounds depth 2 (w', fs)).2 = _
    rw [h2]
  have main : ∀ (names : List Bytes) (n depth : Nat) (s : W × Ext4Fs D) s' y, names.length < depth →
      ReachesReadable bad k t (damagedBlock k t (volume k t ++ rest) c) n names m → (G s.1 ∧ Opened Is c s.2) →
      sweep dev rounds depth (n + 2) s = (s', .ok y) → sweptAt y names = some (.file b) := by
    intro names
    induction names with
    | nil =>
      rintro n depth s s' y hdep ⟨rfl, hbody⟩ hs h
      obtain ⟨depth, rfl⟩ : ∃ j, depth = j + 1 := ⟨depth - 1, by simp at hdep; omega⟩
      have hn := (List.getElem?_eq_some_iff.1 hm).1
      obtain ⟨s2, h4⟩ := hN1 n hn rounds (by omega) b hm hv hlim
        (MkfsLemmas.inodeIntact_damaged rfl hf hd hh hn hbody) depth s hs
      rw [h] at h4
      cases h4
      rw [sweptAt]
    | cons name names ih =>
      rintro n depth s s' y hdep ⟨hbody, es, j, i, e1, e2, e3, e4, hnext⟩ hs h
      rw [List.length_cons] at hdep
      obtain ⟨depth, rfl⟩ : ∃ j, depth = j + 1 := ⟨depth - 1, by omega⟩
      have hn := (List.getElem?_eq_some_iff.1 e1).1
      obtain ⟨s2, ys, e, h4, h5⟩ := hN2 n hn rounds (by omega) es e1 hv hlim
        (MkfsLemmas.inodeIntact_damaged rfl hf hd hh hn hbody) depth s hs
      rw [h] at h4
      cases h4
      have hmem : ((name, i), j) ∈ es.zipIdx.filter
          fun e => !damagedBlock k t (volume k t ++ rest) c n e.2 && !isDots e.1.1 :=
        List.mem_filter.2 ⟨List.mk_mem_zipIdx_iff_getElem?.2 e2, by simp [e3, e4]⟩
      rw [sweptAt]
      rcases forall₂_find h5 name with ⟨g1, -⟩ | ⟨⟨⟨nm, i'⟩, j'⟩, y, g1, g2, u, u', g3, g4⟩
      · have := List.find?_eq_none.1 g1 _ hmem
        simp at this
      rw [g2]
      have q1 : nm = name := by simpa using List.find?_some g1
      have q2 := List.mk_mem_zipIdx_iff_getElem?.1 (List.mem_filter.1 (List.mem_of_find?_eq_some g1)).1
      subst q1
      have hj : j = j' := by
        obtain ⟨l1, f1⟩ := List.getElem?_eq_some_iff.1 e2
        obtain ⟨l2, f2⟩ := List.getElem?_eq_some_iff.1 q2
        refine (List.Nodup.getElem_inj_iff (ht es (List.mem_of_getElem? e1)) (hi := by simpa using l1)
          (hj := by simpa using l2)).1 ?_
        rw [List.getElem_map, List.getElem_map, f1, f2]
      subst hj
      rw [e2] at q2
      cases q2
      exact ih i depth u u' y.2 (by omega) hnext g3 g4
  exact main names 0 depth (w', fs) s' y hdep hreach ⟨hG', ho⟩ h2

/-- C136, on a RAID6 array (as in C101): members with unreadable blocks, and with damage, in each sector on one member
at most; besides the directories on the volume were damaged. -/
theorem C136_array (k : Mkfs.Form) (hu : k.uuid.isSome) (t : List Node) (hf : Fits k t) (ht : DistinctNames t)
    (rest content : Bytes) (hdir : DirectoriesDamaged k t (volume k t ++ rest) content)
    (hl : content.length < 2 ^ 57) :
    ∃ N, ∀ {W D : Type} {dev : BlockDev W D} {G : W → Prop} {Is : D → Disk → (Nat → Prop) → Prop},
      PatchyDev dev G Is → ∀ {ord : IterOrder}, ord.Valid → ∀ {L n c size : Nat} {alg : Raid6Algorithm}
      {good members : Nat → Disk} {unreadable : Nat → Nat → Prop} {devices : List (MdDevice D)},
      Raid6Algorithm.fromLayout L = some alg →
      ReadableSet (fun d k => ∃ u, Is d k u) alg n c size members devices →
      (∀ d, d < n → ∀ x, SoleClaim devices x d → Is x.device (members d) (unreadable d)) →
      Raid6Set L n c size good content → OneDamaged n size good members →
      let bad := fun x => Affected L n c good members (x / 512) ∨ StripeUnreadable n c members unreadable (x / 512)
      HeadIntact bad k t → ∀ w, G w → ∀ rounds, N ≤ rounds → ∀ depth,
        ∃ y, (sweepTree (Reader.streamDev (MdArray.dev dev)) rounds depth
          (Reader.new (MdArray.open ord devices)) w).2 = .ok y ∧
          SweptWithin t (damagedBlock k t (volume k t ++ rest) content) depth 0 y ∧
          ∀ names m b, names.length < depth → t[m]? = some (.file b) →
            ReachesReadable bad k t (damagedBlock k t (volume k t ++ rest) content) 0 names m →
            sweptAt y names = some (.file b) := by
  obtain ⟨N, h⟩ := C136_complete k hu t hf ht rest content hdir hl
  refine ⟨N, fun {W D dev G Is} hd {ord} hord {L n c size alg good members unreadable devices} hL hr hun hset hdam => ?_⟩
  intro bad hh w hG rounds hn depth
  have ha := C101_array hd hord hL hr hun hset hdam
  exact h (Reader.patchyVolume ha ⟨512, size * (n - 2), content⟩ _) rfl hh w _ hG
    ⟨rfl, 0, Reader.at_new (ha.wf ⟨rfl, rfl, rfl⟩) ⟨rfl, rfl, rfl⟩⟩ rounds hn depth

/-- C136, from the paths of the disks: files were written on a new array (C123, C124); blocks of directories were
damaged on the volume; then the disks were damaged, in each sector of the data areas on one disk at most, not always
the same one.  The disks, given in any order, are opened, and the program finds each file to which a path leads by
undamaged entries, if its blocks and those of the directories on the way lie where neither data nor P of the array was
damaged. -/
theorem C136_disks (k : Mkfs.Form) (hu : k.uuid.isSome) (t : List Node) (hf : Fits k t) (ht : DistinctNames t)
    (rest content : Bytes) (hdir : DirectoriesDamaged k t (volume k t ++ rest) content)
    (hl : content.length < 2 ^ 57) :
    ∃ N, ∀ {a : NewArray} {fs : Bytes → Except Nat OsFile} {paths : List Bytes} {order : List Nat}
      {data good : Nat → Bytes} {b : Nat → Nat}, a.GivenAt fs paths order data b →
      Raid6Set a.layout a.members a.chunk a.size (fun d => ⟨512, a.size, good d⟩) content →
      (∀ d, d < a.members → (good d).length = a.size * 512) →
      OneDamaged a.members a.size (fun d => ⟨512, a.size, good d⟩) (fun d => ⟨512, a.size, data d⟩) →
      ∀ {alg : Raid6Algorithm}, Raid6Algorithm.fromLayout a.layout = some alg →
      let bad := fun x => Affected a.layout a.members a.chunk (fun d => ⟨512, a.size, good d⟩)
        (fun d => ⟨512, a.size, data d⟩) (x / 512)
      HeadIntact bad k t →
      ∀ s : System, NativeDev.NoFailures s.os → s.nextId + paths.length < U64 →
      ∃ s' devices, openPaths fs paths s = (s', .ok (devices.map .ok)) ∧
        ∀ ord : IterOrder, ord.Valid → ∀ rounds, N ≤ rounds → ∀ depth,
          ∃ y, (sweepTree (Reader.streamDev (MdArray.dev NativeDev.streamDev.toBlockDev)) rounds depth
            (Reader.new (MdArray.open ord devices)) s'.os).2 = .ok y ∧
          SweptWithin t (damagedBlock k t (volume k t ++ rest) content) depth 0 y ∧
          ∀ names m b, names.length < depth → t[m]? = some (.file b) →
            ReachesReadable bad k t (damagedBlock k t (volume k t ++ rest) content) 0 names m →
            sweptAt y names = some (.file b) := by
  obtain ⟨N, hN⟩ := C136_complete k hu t hf ht rest content hdir hl
  refine ⟨N, fun {a fs paths order data good b} h hset hg hdam {alg} hL => ?_⟩
  intro bad hh s hos hi
  obtain ⟨before, hset', hdam', hsub⟩ := damaged_disks h hset hg hdam
  let now := fun d => asDisk ⟨a.disk (data (order.getD (order.idxOf d) 0)) (order.getD (order.idxOf d) 0),
    some (b (order.getD (order.idxOf d) 0))⟩
  have hm := (C124_members h).1
  obtain ⟨s', devices, h1, hG, hr⟩ := opened_disks hm hL s hos hi
  refine ⟨s', devices, h1, fun ord hord rounds hn depth => ?_⟩
  have hd := NativeDev.streamDevSpec_reliable.toDev.patchy
  have hr' : ReadableSet (fun d k => ∃ u : Nat → Prop, NativeDev.IsDisk d k ∧ u = fun _ => False) alg a.members a.chunk
      a.size now devices :=
    ⟨fun x hx => by
        obtain ⟨k, hk⟩ := hr.disk x hx
        exact ⟨k, _, hk, rfl⟩,
      hr.superblocks,
      fun d hd => by
        obtain ⟨x, hx, hk⟩ := hr.member d hd
        exact ⟨x, hx, _, hk, rfl⟩⟩
  have ha := C101_array hd hord hL hr' (unreadable := fun _ _ => False) (fun d hd x hx => ⟨by
    obtain ⟨y, hy, hk⟩ := hr.member d hd
    have h1 := (C24_active_iff hord devices d x).mpr hx
    rw [(C24_active_iff hord devices d y).mpr hy] at h1
    cases h1
    exact hk, rfl⟩) hset' hdam'
  have hv := (Reader.patchyVolume ha ⟨512, a.size * (a.members - 2), content⟩
    (fun x => Affected a.layout a.members a.chunk before now x ∨
      StripeUnreadable a.members a.chunk now (fun _ _ => False) x)).mono
    (bad' := bad) (by
    rintro x (h | ⟨d, -, y, -, -, h⟩)
    · exact hsub _ h
    · exact h.elim)
  exact hN hv rfl hh s'.os _ hG
    ⟨rfl, 0, Reader.at_new (ha.wf ⟨rfl, rfl, rfl⟩) ⟨rfl, rfl, rfl⟩⟩ rounds hn depth

end

/-! ### A case -/

/-- If the first block of the root directory is damaged, no file but "f" is found in it. -/
theorem sampleTree_only_f {b b' : Bytes} {dam : Nat → Nat → Bool} (h0 : dam 0 0 = true) {depth : Nat} {y : Swept}
    (h : SweptWithin (sampleTree b) dam depth 0 y) {names : List Bytes} (hn : sweptAt y names = some (.file b')) :
    names = [[102]] ∧ b' = b := by
  obtain ⟨m, h3, h4⟩ := C135_within_files _ _ b' names 0 depth y h hn
  cases names with
  | nil =>
    have h3 : 0 = m := h3
    subst h3
    cases h4
  | cons name names =>
    obtain ⟨es, j, i, e1, e2, e3, -, e5⟩ := h3
    cases e1
    match j with
    | 0 => rw [h0] at e3; cases e3
    | 1 =>
      cases e2
      cases names with
      | nil =>
        have e5 : 2 = m := e5
        subst e5
        cases h4
        exact ⟨rfl, rfl⟩
      | cons name' names =>
        obtain ⟨es', _, _, e6, _⟩ := e5
        cases e6
    | j + 2 => cases e2

/-- C136: the volume of `C135_case`, whose root directory has a damaged first block, with any unreadable sectors among
those of the directory "d": the file "f" is found, with all its bytes, and no other file. -/
theorem C136_case [Build] (u : Nat) (hu : u < 256 ^ 16) (b c : Bytes) (hb : b.length ≤ 2 ^ 24)
    (hd : DamagedIn (start ⟨0, some u⟩ (sampleTree b) 0 * 1024) (start ⟨0, some u⟩ (sampleTree b) 0 * 1024 + 1024)
      (volume ⟨0, some u⟩ (sampleTree b)) c) :
    ∃ N, ∀ bad : Nat → Bool, (∀ x, bad x = true → start ⟨0, some u⟩ (sampleTree b) 1 * 2 ≤ x ∧
        x < start ⟨0, some u⟩ (sampleTree b) 2 * 2) → ∀ rounds, N ≤ rounds →
      ∃ y, (sweepTree (Reader.streamDev (flawed bad)) rounds 4 (Reader.new (InMemory.new c 512)) ()).2 = .ok y ∧
        ∀ names b', sweptAt y names = some (.file b') ↔ names = [[102]] ∧ b' = b := by
  have hf := sampleTree_fits_uuid (some u) (fun x h => by cases h; exact hu) b hb
  have hbs : bs ⟨0, some u⟩ = 1024 := rfl
  have htot := hf.total
  have hlv : (volume ⟨0, some u⟩ (sampleTree b)).length = total ⟨0, some u⟩ (sampleTree b) * 1024 := by
    rw [MkfsLemmas.length_volume hf.sizes, hbs]
  rw [← List.append_nil (volume ⟨0, some u⟩ (sampleTree b))] at hd hlv
  have hD := directoriesDamaged_one (k := ⟨0, some u⟩) (i := 0) (j := 0) (t := sampleTree b) ⟨_, rfl, by simp, rfl⟩ hd
  have b00 := damagedBlock_one (k := ⟨0, some u⟩) (t := sampleTree b) hd 0 0
  have b01 := damagedBlock_one (k := ⟨0, some u⟩) (t := sampleTree b) hd 0 1
  have hlen : c.length = total ⟨0, some u⟩ (sampleTree b) * 1024 := by rw [hD.length, hlv]
  have hq : total ⟨0, some u⟩ (sampleTree b) * 1024 / 512 = total ⟨0, some u⟩ (sampleTree b) * 2 := by omega
  have hdisk : InMemory.IsDisk (InMemory.new c 512) ⟨512, total ⟨0, some u⟩ (sampleTree b) * 2, c⟩ := by
    refine ⟨show 0 < 512 by decide, show 512 < U32 by decide, ?_, ?_⟩
    · show c.length < U64
      rw [hlen]
      show _ < 2 ^ 64
      omega
    · show _ = Disk.mk 512 (c.length / 512) (c.take (c.length / 512 * 512))
      rw [hlen, hq]
      congr 1
      exact (List.take_of_length_le (by rw [hlen]; omega)).symm
  have hdist : DistinctNames (sampleTree b) := by
    intro es he
    simp only [sampleTree, List.mem_cons, List.not_mem_nil, or_false, Node.dir.injEq, reduceCtorEq] at he
    rcases he with rfl | rfl <;> simp
  have s1 := MkfsLemmas.start_succ (k := ⟨0, some u⟩) (t := sampleTree b) (i := 0) rfl
  have s2 := MkfsLemmas.start_succ (k := ⟨0, some u⟩) (t := sampleTree b) (i := 1) rfl
  have s3 : start ⟨0, some u⟩ (sampleTree b) 0 ≤ start ⟨0, some u⟩ (sampleTree b) 1 := by
    change start ⟨0, some u⟩ (sampleTree b) 1 = _ at s1
    omega
  obtain ⟨N, h⟩ := C136_complete ⟨0, some u⟩ rfl (sampleTree b) hf hdist [] c hD (by rw [hlen]; omega)
  refine ⟨N, fun bad hbad rounds hr => ?_⟩
  obtain ⟨y, h1, h2, h3⟩ := h (Reader.patchyVolume (flawed_patchy bad)
    ⟨512, total ⟨0, some u⟩ (sampleTree b) * 2, c⟩ (fun x => bad x = true)) rfl (by
      intro x hx h3
      have h0 : start ⟨0, some u⟩ (sampleTree b) 0 =
        firstData ⟨0, some u⟩ + 2 + tableBlocks ⟨0, some u⟩ (sampleTree b) := rfl
      rw [← h0, hbs] at hx
      have := (hbad _ h3).1
      change x / (512 : Nat) ≥ _ at this
      omega) () _ trivial
    ⟨rfl, 0, Reader.at_new (InMemory.devSpec.wf hdisk) ⟨hdisk, rfl⟩⟩ rounds hr 4
  refine ⟨y, h1, fun names b' => ⟨fun hn => ?_, ?_⟩⟩
  · exact sampleTree_only_f (by rw [b00]; simp) h2 hn
  · rintro ⟨rfl, rfl⟩
    refine h3 [[102]] 2 b' (by simp) rfl ⟨?_, _, 1, 2, rfl, rfl, by rw [b01]; simp, by decide, rfl, ?_⟩
    · intro nd hnd x g1 g2 g3
      cases hnd
      rw [← s1, hbs] at g2
      have := (hbad _ g3).1
      change x / (512 : Nat) ≥ _ at this
      simp only [Nat.zero_add] at g2
      omega
    · intro nd hnd x g1 g2 g3
      rw [hbs] at g1
      have := (hbad _ g3).2
      change x / (512 : Nat) < _ at this
      omega

end MdRecover
