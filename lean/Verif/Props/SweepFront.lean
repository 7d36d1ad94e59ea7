import Verif.Lemmas.SweepFront
import Verif.Spec.SweepFront
import Verif.Props.SweepPatchy

/-! C137: damaged directories on devices parts of which cannot be read: a directory need be readable only up to the
entry that is followed. -/

namespace MdRecover
open MdSpec Fixture Mkfs

section
variable [Build]

omit [Build] in
/-- C137 says more than C136: where all blocks on the way can be read, those up to the entries followed can. -/
theorem C137_more {bad : Nat → Prop} {k : Mkfs.Form} {t : List Node} (hf : Fits k t) {damaged : Nat → Nat → Bool} :
    ∀ (names : List Bytes) (n m : Nat), ReachesReadable bad k t damaged n names m →
      ReachesFront bad k t damaged n names m
  | [], _, _, h => h
  | name :: names, n, m, ⟨hb, es, j, i, e1, e2, e3, e4, e5⟩ => by
    refine ⟨es, j, i, e1, e2, fun x h1 h2 => hb _ e1 x h1 ?_, e3, e4, C137_more hf names i m e5⟩
    obtain ⟨-, hbl⟩ := MkfsLemmas.length_dir hf n es e1
    have hj := (List.getElem?_eq_some_iff.1 e2).1
    rw [hbl]
    exact Nat.lt_of_lt_of_le h2 (Nat.mul_le_mul_right _ (by omega))

/-- C137: on a device with a volume written from a table of files, some blocks of whose directories were damaged
later, and some bytes of which cannot be read, none of them in front of the files and directories.  The program that
goes through the volume from the root on, and reads on past errors, returns; what it returns is in the table (C135);
and it has each file, with all its bytes, that a path leads to by entries that are not in damaged blocks, if the
blocks of the file can be read, and those of each directory on the way up to the entry followed: whatever else cannot
be read.  The same bound on the loops is enough for all devices, all depths and all files. -/
theorem C137_complete (k : Mkfs.Form) (hu : k.uuid.isSome) (t : List Node) (hf : Fits k t) (ht : DistinctNames t)
    (rest c : Bytes) (hd : DirectoriesDamaged k t (volume k t ++ rest) c) (hl : c.length < 2 ^ 57) :
    ∃ N, ∀ {W D : Type} {bad : Nat → Prop} {lim : Nat → Nat} {dev : StreamDev W D} {G : W → Prop}
      {Is : D → Bytes → Prop} {At : W → D → Nat → Prop}, PatchyVolume bad lim dev G Is At → lim c.length = U64 →
      HeadIntact bad k t → ∀ (w : W) (d : D), G w → Is d c → ∀ rounds, N ≤ rounds → ∀ depth,
        ∃ y, (sweepTree dev rounds depth d w).2 = .ok y ∧
          SweptWithin t (damagedBlock k t (volume k t ++ rest) c) depth 0 y ∧
          ∀ names m b, names.length < depth → t[m]? = some (.file b) →
            ReachesFront bad k t (damagedBlock k t (volume k t ++ rest) c) 0 names m →
            sweptAt y names = some (.file b) := by
  have hc : c.length < U64 := by show _ < 2 ^ 64; omega
  have hop := MkfsLemmas.openable_damaged rfl hf hd
  obtain ⟨N1, hN1⟩ := bound_all (Q := fun n rounds => ∀ b, t[n]? = some (.file b) →
      ∀ {W D : Type} {bad : Nat → Prop} {lim : Nat → Nat} {dev : StreamDev W D} {G : W → Prop}
        {Is : D → Bytes → Prop} {At : W → D → Nat → Prop}, PatchyVolume bad lim dev G Is At → lim c.length = U64 →
        InodeIntact bad c (n + 2) → ∀ depth, ∀ s : W × Ext4Fs D, (G s.1 ∧ Opened Is c s.2) →
          ∃ s', sweep dev rounds (depth + 1) (n + 2) s = (s', .ok (.file b))) (by
    intro n
    rcases hn : t[n]? with _ | b | es
    · exact ⟨0, fun _ _ b h => nomatch h⟩
    · obtain ⟨N, h⟩ := MkfsLemmas.sweep_file rfl hf hd hl hn
      refine ⟨N, fun R hR b' hb' => ?_⟩
      cases hb'
      exact fun hv hlim hi depth s hs => h hv hlim hi R hR depth s hs
    · exact ⟨0, fun _ _ b h => nomatch h⟩) t.length
  obtain ⟨N2, hN2⟩ := bound_all (Q := fun n rounds => ∀ es, t[n]? = some (.dir es) →
      ∀ {W D : Type} {bad : Nat → Prop} {lim : Nat → Nat} {dev : StreamDev W D} {G : W → Prop}
        {Is : D → Bytes → Prop} {At : W → D → Nat → Prop}, PatchyVolume bad lim dev G Is At → lim c.length = U64 →
        HeadIntact bad k t → ∀ m, m ≤ es.length →
        (∀ x, start k t n * bs k ≤ x → x < (start k t n + m) * bs k → ¬ bad x) →
        ∀ depth, ∀ s : W × Ext4Fs D, (G s.1 ∧ Opened Is c s.2) →
        ∃ s' q ys e, sweep dev rounds (depth + 1) (n + 2) s = (s', .ok (.dir ys e)) ∧
          q <+: (es.zipIdx.filter
            fun e => !damagedBlock k t (volume k t ++ rest) c n e.2 && !isDots e.1.1) ∧
          ((es.zipIdx.take m).filter
            fun e => !damagedBlock k t (volume k t ++ rest) c n e.2 && !isDots e.1.1) <+: q ∧
          List.Forall₂ (fun (e : (Bytes × Nat) × Nat) (y : Bytes × Swept) => e.1.1 = y.1 ∧
              ∃ u u', (G u.1 ∧ Opened Is c u.2) ∧ sweep dev rounds depth (e.1.2 + 2) u = (u', .ok y.2)) q ys) (by
    intro n
    rcases hn : t[n]? with _ | b | es
    · exact ⟨0, fun _ _ b h => nomatch h⟩
    · exact ⟨0, fun _ _ b h => nomatch h⟩
    · obtain ⟨N, h⟩ := MkfsLemmas.sweep_front rfl hf hd hc hu hn
      refine ⟨N, fun R hR es' hes' => ?_⟩
      cases hes'
      exact fun hv hlim hh m hm hfr depth s hs => h hv hlim hh m hm hfr R hR depth s hs) t.length
  refine ⟨N1 + N2, fun {W D bad lim dev G Is At} hv hlim hh w d hG hI rounds hr depth => ?_⟩
  have hag := hv.agree hc (by omega)
  have hI' : (fun d c' => c' = c ∧ Is d c) d c := ⟨rfl, hI⟩
  obtain ⟨w', fs, h1, hG', ho⟩ := open_opened hag.perfect hG hI' hop hl
  have hb : TableChecked c := .inr (by have := hop.fits; show _ < 2 ^ 64; omega)
  rw [← hag.openFs hG hI' hb (MkfsLemmas.fsIntact_damaged rfl hf hd hh)] at h1
  have ho := opened_same.1 ho
  obtain ⟨s', y, h2, -, h3⟩ := MkfsLemmas.sweep_within rfl hf hd hv.toVolumeSpec hc hu rounds depth 0 hf.root (w', fs)
    ⟨hG', ho⟩
  refine ⟨y, ?_, h3, fun names m b hdep hm hreach => ?_⟩
  · rw [sweepTree, SM.bind_ok (h := h1)]
    show (sweep dev rounds depth 2 (w', fs)).2 = _
    rw [h2]
  have main : ∀ (names : List Bytes) (n depth : Nat) (s : W × Ext4Fs D) s' y, names.length < depth →
      ReachesFront bad k t (damagedBlock k t (volume k t ++ rest) c) n names m → (G s.1 ∧ Opened Is c s.2) →
      sweep dev rounds depth (n + 2) s = (s', .ok y) → sweptAt y names = some (.file b) := by
    intro names
    induction names with
    | nil =>
      rintro n depth s s' y hdep ⟨rfl, hbody⟩ hs h
      obtain ⟨depth, rfl⟩ : ∃ j, depth = j + 1 := ⟨depth - 1, by simp at hdep; omega⟩
      have hn := (List.getElem?_eq_some_iff.1 hm).1
      obtain ⟨s2, h4⟩ := hN1 n hn rounds (by omega) b hm hv hlim
        (MkfsLemmas.inodeIntact_damaged rfl hf hd hh hn hbody) depth s hs
      rw [h] at h4
      cases h4
      rw [sweptAt]
    | cons name names ih =>
      rintro n depth s s' y hdep ⟨es, j, i, e1, e2, hfront, e3, e4, hnext⟩ hs h
      rw [List.length_cons] at hdep
      obtain ⟨depth, rfl⟩ : ∃ j, depth = j + 1 := ⟨depth - 1, by omega⟩
      have hn := (List.getElem?_eq_some_iff.1 e1).1
      obtain ⟨s2, q, ys, e, h4, hq, hT, h5⟩ := hN2 n hn rounds (by omega) es e1 hv hlim hh (j + 1)
        (List.getElem?_eq_some_iff.1 e2).1 hfront depth s hs
      rw [h] at h4
      cases h4
      have hmem : ((name, i), j) ∈ q :=
        hT.subset (List.mem_filter.2 ⟨List.mem_of_getElem? (i := j) (by
          rw [List.getElem?_take, if_pos (Nat.lt_succ_self j), List.getElem?_zipIdx, e2]
          simp), by simp [e3, e4]⟩)
      rw [sweptAt]
      rcases forall₂_find h5 name with ⟨g1, -⟩ | ⟨⟨⟨nm, i'⟩, j'⟩, y, g1, g2, u, u', g3, g4⟩
      · have := List.find?_eq_none.1 g1 _ hmem
        simp at this
      rw [g2]
      have q1 : nm = name := by simpa using List.find?_some g1
      have q2 := List.mk_mem_zipIdx_iff_getElem?.1 (List.mem_filter.1 (hq.subset (List.mem_of_find?_eq_some g1))).1
      subst q1
      have hj : j = j' := by
        obtain ⟨l1, f1⟩ := List.getElem?_eq_some_iff.1 e2
        obtain ⟨l2, f2⟩ := List.getElem?_eq_some_iff.1 q2
        refine (List.Nodup.getElem_inj_iff (ht es (List.mem_of_getElem? e1)) (hi := by simpa using l1)
          (hj := by simpa using l2)).1 ?_
        rw [List.getElem_map, List.getElem_map, f1, f2]
      subst hj
      rw [e2] at q2
      cases q2
      exact ih i depth u u' y.2 (by omega) hnext g3 g4
  exact main names 0 depth (w', fs) s' y hdep hreach ⟨hG', ho⟩ h2

/-- C137, on a RAID6 array (as in C101): members with unreadable blocks, and with damage, in each sector on one member
at most; besides the directories on the volume were damaged. -/
theorem C137_array (k : Mkfs.Form) (hu : k.uuid.isSome) (t : List Node) (hf : Fits k t) (ht : DistinctNames t)
    (rest content : Bytes) (hdir : DirectoriesDamaged k t (volume k t ++ rest) content)
    (hl : content.length < 2 ^ 57) :
    ∃ N, ∀ {W D : Type} {dev : BlockDev W D} {G : W → Prop} {Is : D → Disk → (Nat → Prop) → Prop},
      PatchyDev dev G Is → ∀ {ord : IterOrder}, ord.Valid → ∀ {L n c size : Nat} {alg : Raid6Algorithm}
      {good members : Nat → Disk} {unreadable : Nat → Nat → Prop} {devices : List (MdDevice D)},
      Raid6Algorithm.fromLayout L = some alg →
      ReadableSet (fun d k => ∃ u, Is d k u) alg n c size members devices →
      (∀ d, d < n → ∀ x, SoleClaim devices x d → Is x.device (members d) (unreadable d)) →
      Raid6Set L n c size good content → OneDamaged n size good members →
      let bad := fun x => Affected L n c good members (x / 512) ∨ StripeUnreadable n c members unreadable (x / 512)
      HeadIntact bad k t → ∀ w, G w → ∀ rounds, N ≤ rounds → ∀ depth,
        ∃ y, (sweepTree (Reader.streamDev (MdArray.dev dev)) rounds depth
          (Reader.new (MdArray.open ord devices)) w).2 = .ok y ∧
          SweptWithin t (damagedBlock k t (volume k t ++ rest) content) depth 0 y ∧
          ∀ names m b, names.length < depth → t[m]? = some (.file b) →
            ReachesFront bad k t (damagedBlock k t (volume k t ++ rest) content) 0 names m →
            sweptAt y names = some (.file b) := by
  obtain ⟨N, h⟩ := C137_complete k hu t hf ht rest content hdir hl
  refine ⟨N, fun {W D dev G Is} hd {ord} hord {L n c size alg good members unreadable devices} hL hr hun hset hdam => ?_⟩
  intro bad hh w hG rounds hn depth
  have ha := C101_array hd hord hL hr hun hset hdam
  exact h (Reader.patchyVolume ha ⟨512, size * (n - 2), content⟩ _) rfl hh w _ hG
    ⟨rfl, 0, Reader.at_new (ha.wf ⟨rfl, rfl, rfl⟩) ⟨rfl, rfl, rfl⟩⟩ rounds hn depth

/-- C137, from the paths of the disks: files were written on a new array (C123, C124); blocks of directories were
damaged on the volume; then the disks were damaged, in each sector of the data areas on one disk at most, not always
the same one.  The disks, given in any order, are opened, and the program finds each file to which a path leads by
undamaged entries, if its blocks, and those of the directories on the way up to the entries followed, lie where
neither data nor P of the array was damaged. -/
theorem C137_disks (k : Mkfs.Form) (hu : k.uuid.isSome) (t : List Node) (hf : Fits k t) (ht : DistinctNames t)
    (rest content : Bytes) (hdir : DirectoriesDamaged k t (volume k t ++ rest) content)
    (hl : content.length < 2 ^ 57) :
    ∃ N, ∀ {a : NewArray} {fs : Bytes → Except Nat OsFile} {paths : List Bytes} {order : List Nat}
      {data good : Nat → Bytes} {b : Nat → Nat}, a.GivenAt fs paths order data b →
      Raid6Set a.layout a.members a.chunk a.size (fun d => ⟨512, a.size, good d⟩) content →
      (∀ d, d < a.members → (good d).length = a.size * 512) →
      OneDamaged a.members a.size (fun d => ⟨512, a.size, good d⟩) (fun d => ⟨512, a.size, data d⟩) →
      ∀ {alg : Raid6Algorithm}, Raid6Algorithm.fromLayout a.layout = some alg →
      let bad := fun x => Affected a.layout a.members a.chunk (fun d => ⟨512, a.size, good d⟩)
        (fun d => ⟨512, a.size, data d⟩) (x / 512)
      HeadIntact bad k t →
      ∀ s : System, NativeDev.NoFailures s.os → s.nextId + paths.length < U64 →
      ∃ s' devices, openPaths fs paths s = (s', .ok (devices.map .ok)) ∧
        ∀ ord : IterOrder, ord.Valid → ∀ rounds, N ≤ rounds → ∀ depth,
          ∃ y, (sweepTree (Reader.streamDev (MdArray.dev NativeDev.streamDev.toBlockDev)) rounds depth
            (Reader.new (MdArray.open ord devices)) s'.os).2 = .ok y ∧
          SweptWithin t (damagedBlock k t (volume k t ++ rest) content) depth 0 y ∧
          ∀ names m b, names.length < depth → t[m]? = some (.file b) →
            ReachesFront bad k t (damagedBlock k t (volume k t ++ rest) content) 0 names m →
            sweptAt y names = some (.file b) := by
  obtain ⟨N, hN⟩ := C137_complete k hu t hf ht rest content hdir hl
  refine ⟨N, fun {a fs paths order data good b} h hset hg hdam {alg} hL => ?_⟩
  intro bad hh s hos hi
  obtain ⟨before, hset', hdam', hsub⟩ := damaged_disks h hset hg hdam
  let now := fun d => asDisk ⟨a.disk (data (order.getD (order.idxOf d) 0)) (order.getD (order.idxOf d) 0),
    some (b (order.getD (order.idxOf d) 0))⟩
  have hm := (C124_members h).1
  obtain ⟨s', devices, h1, hG, hr⟩ := opened_disks hm hL s hos hi
  refine ⟨s', devices, h1, fun ord hord rounds hn depth => ?_⟩
  have hd := NativeDev.streamDevSpec_reliable.toDev.patchy
  have hr' : ReadableSet (fun d k => ∃ u : Nat → Prop, NativeDev.IsDisk d k ∧ u = fun _ => False) alg a.members a.chunk
      a.size now devices :=
    ⟨fun x hx => by
        obtain ⟨k, hk⟩ := hr.disk x hx
        exact ⟨k, _, hk, rfl⟩,
      hr.superblocks,
      fun d hd => by
        obtain ⟨x, hx, hk⟩ := hr.member d hd
        exact ⟨x, hx, _, hk, rfl⟩⟩
  have ha := C101_array hd hord hL hr' (unreadable := fun _ _ => False) (fun d hd x hx => ⟨by
    obtain ⟨y, hy, hk⟩ := hr.member d hd
    have h1 := (C24_active_iff hord devices d x).mpr hx
    rw [(C24_active_iff hord devices d y).mpr hy] at h1
    cases h1
    exact hk, rfl⟩) hset' hdam'
  have hv := (Reader.patchyVolume ha ⟨512, a.size * (a.members - 2), content⟩
    (fun x => Affected a.layout a.members a.chunk before now x ∨
      StripeUnreadable a.members a.chunk now (fun _ _ => False) x)).mono
    (bad' := bad) (by
    rintro x (h | ⟨d, -, y, -, -, h⟩)
    · exact hsub _ h
    · exact h.elim)
  exact hN hv rfl hh s'.os _ hG
    ⟨rfl, 0, Reader.at_new (ha.wf ⟨rfl, rfl, rfl⟩) ⟨rfl, rfl, rfl⟩⟩ rounds hn depth

end

/-! ### A case -/

/-- C137: the second block of the directory "d" is damaged, and any sectors of it and of the second block of the root
directory are unreadable: the file "g" in "d" is found, with all its bytes, by the first blocks of both. -/
theorem C137_case [Build] (u : Nat) (hu : u < 256 ^ 16) (b c : Bytes) (hb : b.length ≤ 2 ^ 24)
    (hd : DamagedIn ((start ⟨0, some u⟩ (sampleTree b) 1 + 1) * 1024)
      ((start ⟨0, some u⟩ (sampleTree b) 1 + 1) * 1024 + 1024) (volume ⟨0, some u⟩ (sampleTree b)) c) :
    ∃ N, ∀ bad : Nat → Bool, (∀ x, bad x = true →
        x / 2 = start ⟨0, some u⟩ (sampleTree b) 0 + 1 ∨ x / 2 = start ⟨0, some u⟩ (sampleTree b) 1 + 1) →
      ∀ rounds, N ≤ rounds →
      ∃ y, (sweepTree (Reader.streamDev (flawed bad)) rounds 4 (Reader.new (InMemory.new c 512)) ()).2 = .ok y ∧
        sweptAt y [[100], [103]] = some (.file b) := by
  have hf := sampleTree_fits_uuid (some u) (fun x h => by cases h; exact hu) b hb
  have hbs : bs ⟨0, some u⟩ = 1024 := rfl
  have htot := hf.total
  have hlv : (volume ⟨0, some u⟩ (sampleTree b)).length = total ⟨0, some u⟩ (sampleTree b) * 1024 := by
    rw [MkfsLemmas.length_volume hf.sizes, hbs]
  rw [← List.append_nil (volume ⟨0, some u⟩ (sampleTree b))] at hd hlv
  have hD := directoriesDamaged_one (k := ⟨0, some u⟩) (i := 1) (j := 1) (t := sampleTree b) ⟨_, rfl, by simp, rfl⟩ hd
  have b00 := damagedBlock_one (k := ⟨0, some u⟩) (t := sampleTree b) hd 0 0
  have b10 := damagedBlock_one (k := ⟨0, some u⟩) (t := sampleTree b) hd 1 0
  have hlen : c.length = total ⟨0, some u⟩ (sampleTree b) * 1024 := by rw [hD.length, hlv]
  have hq : total ⟨0, some u⟩ (sampleTree b) * 1024 / 512 = total ⟨0, some u⟩ (sampleTree b) * 2 := by omega
  have hdisk : InMemory.IsDisk (InMemory.new c 512) ⟨512, total ⟨0, some u⟩ (sampleTree b) * 2, c⟩ := by
    refine ⟨show 0 < 512 by decide, show 512 < U32 by decide, ?_, ?_⟩
    · show c.length < U64
      rw [hlen]
      show _ < 2 ^ 64
      omega
    · show _ = Disk.mk 512 (c.length / 512) (c.take (c.length / 512 * 512))
      rw [hlen, hq]
      congr 1
      exact (List.take_of_length_le (by rw [hlen]; omega)).symm
  have hdist : DistinctNames (sampleTree b) := by
    intro es he
    simp only [sampleTree, List.mem_cons, List.not_mem_nil, or_false, Node.dir.injEq, reduceCtorEq] at he
    rcases he with rfl | rfl <;> simp
  have s1 := MkfsLemmas.start_succ (k := ⟨0, some u⟩) (t := sampleTree b) (i := 0) rfl
  have s2 := MkfsLemmas.start_succ (k := ⟨0, some u⟩) (t := sampleTree b) (i := 1) rfl
  have s3 : start ⟨0, some u⟩ (sampleTree b) 0 ≤ start ⟨0, some u⟩ (sampleTree b) 1 := by
    change start ⟨0, some u⟩ (sampleTree b) 1 = _ at s1
    omega
  have e0 : blocks ⟨0, some u⟩ (.dir [([100], 1), ([102], 2)]) = 2 := (MkfsLemmas.blocks_dir _ (by simp)).2
  have e1 : blocks ⟨0, some u⟩ (.dir [([103], 2), ([117, 112], 0)]) = 2 := (MkfsLemmas.blocks_dir _ (by simp)).2
  have s4 : start ⟨0, some u⟩ (sampleTree b) 1 = start ⟨0, some u⟩ (sampleTree b) 0 + 2 := by
    rw [e0] at s1
    exact s1
  have s5 : start ⟨0, some u⟩ (sampleTree b) 2 = start ⟨0, some u⟩ (sampleTree b) 1 + 2 := by
    rw [e1] at s2
    exact s2
  obtain ⟨N, h⟩ := C137_complete ⟨0, some u⟩ rfl (sampleTree b) hf hdist [] c hD (by rw [hlen]; omega)
  refine ⟨N, fun bad hbad rounds hr => ?_⟩
  obtain ⟨y, h1, h2, h3⟩ := h (Reader.patchyVolume (flawed_patchy bad)
    ⟨512, total ⟨0, some u⟩ (sampleTree b) * 2, c⟩ (fun x => bad x = true)) rfl (by
      intro x hx h3
      have h0 : start ⟨0, some u⟩ (sampleTree b) 0 =
        firstData ⟨0, some u⟩ + 2 + tableBlocks ⟨0, some u⟩ (sampleTree b) := rfl
      rw [← h0, hbs] at hx
      have := hbad _ h3
      change x / (512 : Nat) / 2 = _ ∨ x / (512 : Nat) / 2 = _ at this
      omega) () _ trivial
    ⟨rfl, 0, Reader.at_new (InMemory.devSpec.wf hdisk) ⟨hdisk, rfl⟩⟩ rounds hr 4
  have step : ∀ x n, start ⟨0, some u⟩ (sampleTree b) n * 1024 ≤ x →
      x < (start ⟨0, some u⟩ (sampleTree b) n + 0 + 1) * 1024 → x / 512 / 2 = start ⟨0, some u⟩ (sampleTree b) n := by
    intro x n g1 g2
    omega
  refine ⟨y, h1, h3 [[100], [103]] 2 b (by simp) rfl ⟨_, 0, 1, rfl, rfl, ?_, by rw [b00, beq_eq_false_iff_ne]; omega, by decide,
    _, 0, 2, rfl, rfl, ?_, by rw [b10, beq_eq_false_iff_ne]; omega, by decide, rfl, ?_⟩⟩
  · intro x g1 g2 g3
    have := step x 0 g1 g2
    have := hbad _ g3
    change x / (512 : Nat) / 2 = _ ∨ x / (512 : Nat) / 2 = _ at this
    omega
  · intro x g1 g2 g3
    have := step x 1 g1 g2
    have := hbad _ g3
    change x / (512 : Nat) / 2 = _ ∨ x / (512 : Nat) / 2 = _ at this
    omega
  · intro nd hnd x g1 g2 g3
    rw [hbs] at g1
    have := hbad _ g3
    change x / (512 : Nat) / 2 = _ ∨ x / (512 : Nat) / 2 = _ at this
    omega

end MdRecover
