import Verif.Lemmas.Ext4Path
import Verif.Spec.PathFound

namespace MdRecover
open MdSpec
variable [Build]

section
variable {W D : Type} {F : Prop} {dev : StreamDev W D} {G : W → Prop} {Is : D → Bytes → Prop}
  {At : W → D → Nat → Prop}

/-! ## Calls -/

/-- A read that returns zero found the end. -/
theorem zero_at_end (hv : VolumeSpec F dev G Is At) {c : Bytes} (hc : c.length < U64) {w : W}
    (hG : G w) {fs : Ext4Fs D} (ho : Opened Is c fs) {inode : Inode} {f : Ext4File D}
    (hf : Ext4File.open fs inode = .ok f) (hw : BlocksCounted c inode.fileSizeBytes)
    {h : List (Bytes × Res (Nat × Bytes))} {s s' : W × Ext4File D} (hcalls : Calls dev (w, f) h s)
    {buf out : Bytes} (hret : Returns dev s buf s' (.ok (0, out))) :
    inode.fileSizeBytes ≤ dataCalls h * blockSizeOf (sbOf c) := by
  have hpos : 0 < blockSizeOf (sbOf c) := Nat.mul_pos (by omega) (Nat.two_pow_pos _)
  have hP := Ext4File.closed_true c (blockSizeOf (sbOf c))
  obtain ⟨hi, hp, -, -⟩ := Ext4File.open_inv (w := w) hG ho hf (fun _ => True) trivial
  obtain ⟨hi1, hp1⟩ := Ext4File.calls_inv hv hc hP hcalls hi hw
  have hp1 : s.2.blockPos = dataCalls h := by
    rw [hp1]
    show f.blockPos + _ = _
    omega
  obtain ⟨-, h1⟩ := Ext4File.returns_inv hv hc hP hi1 hret (fun h => (by cases h)) hw
  rw [hp1] at h1
  rcases h1 with ⟨-, ⟨e, h1⟩ | ⟨-, h1⟩⟩ | ⟨-, h1, node, k, j, -, -, -, -, -, -, -, h3⟩
  · cases h1
  · exact h1
  · have h3 := congrArg Prod.fst (Res.ok.inj h3)
    simp only at h3
    omega

/-- The blocks that calls returned. -/
theorem calls_blocks (hv : VolumeSpec F dev G Is At) {c : Bytes} (hc : c.length < U64) {w : W}
    (hG : G w) {fs : Ext4Fs D} (ho : Opened Is c fs) {inode : Inode} {f : Ext4File D}
    (hf : Ext4File.open fs inode = .ok f) (hw : BlocksCounted c inode.fileSizeBytes)
    {g : List (Bytes × Res (Nat × Bytes))} {s : W × Ext4File D} (hcalls : Calls dev (w, f) g s)
    (hbuf : ∀ y ∈ g, y.1 = zeros (blockSizeOf (sbOf c))) :
    ∃ xs : List Nat, xs.length = dataCalls g ∧
      (∀ k x, xs[k]? = some x → ExtentMap c (blockSizeOf (sbOf c)) inode.blocksBuffer k x ∧
        BlockInside c (blockSizeOf (sbOf c)) x) ∧
      dataOf g = (xs.flatMap (blockOf c (blockSizeOf (sbOf c)))).take inode.fileSizeBytes ∧
      xs.length * blockSizeOf (sbOf c) < inode.fileSizeBytes + blockSizeOf (sbOf c) ∧
      ((∃ y ∈ g, AtEnd y.2) → inode.fileSizeBytes ≤ xs.length * blockSizeOf (sbOf c)) ∧
      ((∀ y ∈ g, ∀ n out, y.2 = .ok (n, out) → n ≠ 0 → n = blockSizeOf (sbOf c)) →
        xs.length * blockSizeOf (sbOf c) ≤ inode.fileSizeBytes) ∧
      List.Forall₂ (fun y x => ∃ n, y.2 = .ok (n, blockOf c (blockSizeOf (sbOf c)) x))
        (g.filter fun y => gotData y.2) xs := by
  have hpos : 0 < blockSizeOf (sbOf c) := Nat.mul_pos (by omega) (Nat.two_pow_pos _)
  generalize hs0 : (w, f) = s0 at hcalls
  induction hcalls with
  | nil =>
    refine ⟨[], rfl, fun k x h => (by simp at h), by simp [dataOf], by simp only [List.length_nil]; omega,
      fun h => ?_, fun _ => (by simp), .nil⟩
    obtain ⟨_, h, _⟩ := h
    cases h
  | snoc s s' g buf r hcalls hret hr ih =>
    subst hs0
    obtain ⟨xs, h1, h2, h3, h4, h5, h6, h7⟩ := ih fun y hy => hbuf y (List.mem_append_left _ hy)
    have hD : dataOf (g ++ [(buf, r)]) = dataOf g ++ dataOf [(buf, r)] := List.flatMap_append
    have hC : dataCalls (g ++ [(buf, r)]) = dataCalls g + dataCalls [(buf, r)] := List.countP_append
    by_cases hn : gotData r = true
    · obtain ⟨n, out, rfl⟩ : ∃ n out, r = .ok (n, out) := by
        match r, hn with
        | .ok (n, out), _ => exact ⟨n, out, rfl⟩
      have hn' : n ≠ 0 := by simpa [gotData] using hn
      have hb : buf = zeros (blockSizeOf (sbOf c)) := hbuf (buf, .ok (n, out)) (by simp)
      have hbl : buf.length = blockSizeOf (sbOf c) := by rw [hb]; exact List.length_replicate
      obtain ⟨x, k1, k2, k3, k4⟩ :=
        C64_right_block hv c hc w hG fs ho inode f hf hw g s s' hcalls buf out n hret hn'
      rw [hbl] at k2 k3
      have hC1 : dataCalls [(buf, Res.ok (n, out))] = 1 := by
        unfold dataCalls
        simp [hn]
      have hD1 : dataOf [(buf, Res.ok (n, out))] = out.take n := by simp [dataOf]
      have hlen : (xs.flatMap (blockOf c (blockSizeOf (sbOf c)))).length
          = xs.length * blockSizeOf (sbOf c) := by
        rw [List.length_flatMap]
        have : xs.map (fun x => (blockOf c (blockSizeOf (sbOf c)) x).length)
            = List.replicate xs.length (blockSizeOf (sbOf c)) := by
          rw [List.eq_replicate_iff]
          refine ⟨List.length_map _, fun b hb => ?_⟩
          obtain ⟨y, hy, rfl⟩ := List.mem_map.1 hb
          obtain ⟨k, hk⟩ := List.mem_iff_getElem?.1 hy
          have := (h2 k y hk).2
          unfold BlockInside at this
          unfold blockOf
          rw [List.length_take, List.length_drop]
          omega
        rw [this, List.sum_replicate, smul_eq_mul]
      refine ⟨xs ++ [x], by rw [List.length_append, h1, hC, hC1]; rfl, fun k y hy => ?_, ?_, ?_, ?_, ?_, ?_⟩
      · by_cases hk : k < xs.length
        · rw [List.getElem?_append_left hk] at hy
          exact h2 k y hy
        · rw [List.getElem?_append_right (by omega)] at hy
          have hk0 : k - xs.length = 0 := by
            have := (List.getElem?_eq_some_iff.1 hy).1
            simp at this
            omega
          rw [hk0] at hy
          cases hy
          have : k = dataCalls g := by omega
          rw [this]
          exact ⟨k1, k2⟩
      · rw [hD, hD1, List.flatMap_append, List.take_append, hlen, h3, h1]
        congr 1
        rw [List.flatMap_singleton, k3, k4]
        unfold blockOf
        rw [List.take_take, List.take_take]
        congr 1
        omega
      · rw [List.length_append, List.length_singleton, Nat.add_mul]
        rw [h1] at h4 ⊢
        omega
      · rintro ⟨y, hy, he⟩
        rw [List.length_append, List.length_singleton, Nat.add_mul]
        rcases List.mem_append.1 hy with hy | hy
        · have := h5 ⟨y, hy, he⟩
          omega
        · rw [List.mem_singleton] at hy
          subst hy
          obtain ⟨b, he⟩ := he
          cases he
          exact absurd rfl hn'
      · intro hall
        have e1 := h6 fun y hy => hall y (List.mem_append_left _ hy)
        have e2 := hall (buf, .ok (n, out)) (by simp) n out rfl hn'
        rw [List.length_append, List.length_singleton, Nat.add_mul]
        rw [h1] at e1 ⊢
        omega
      · rw [List.filter_append]
        refine List.rel_append h7 ?_
        have : ([(buf, Res.ok (n, out))].filter fun y => gotData y.2) = [(buf, Res.ok (n, out))] := by
          simp [hn]
        rw [this]
        refine .cons ⟨n, ?_⟩ .nil
        rw [k3]
        rfl
    · have hC1 : dataCalls [(buf, r)] = 0 := by
        unfold dataCalls
        simp [hn]
      have hD1 : dataOf [(buf, r)] = [] := by
        unfold dataOf
        match r, hn with
        | .ok (n, out), hn =>
          have : n = 0 := by simpa [gotData] using hn
          simp [this]
        | .err e, _ => rfl
        | .panic, _ => rfl
      refine ⟨xs, by rw [hC, hC1, h1]; rfl, h2, by rw [hD, hD1, List.append_nil, h3], h4, ?_, ?_, ?_⟩
      · rintro ⟨y, hy, he⟩
        rcases List.mem_append.1 hy with hy | hy
        · exact h5 ⟨y, hy, he⟩
        · rw [List.mem_singleton] at hy
          subst hy
          obtain ⟨b, rfl⟩ := he
          rw [h1]
          exact zero_at_end hv hc hG ho hf hw hcalls hret
      · exact fun hall => h6 fun y hy => hall y (List.mem_append_left _ hy)
      · rw [List.filter_append]
        have : ([(buf, r)].filter fun y => gotData y.2) = [] := by simp [hn]
        rw [this, List.append_nil]
        exact h7

/-- The first calls. -/
theorem calls_front {s0 s : W × Ext4File D} {g2 : List (Bytes × Res (Nat × Bytes))} :
    ∀ {g1 : List (Bytes × Res (Nat × Bytes))}, Calls dev s0 (g1 ++ g2) s → ∃ s1, Calls dev s0 g1 s1 := by
  intro g1 h
  generalize hg : g1 ++ g2 = g at h
  induction h generalizing g2 with
  | nil =>
    obtain ⟨rfl, -⟩ := List.append_eq_nil_iff.1 hg
    exact ⟨_, .nil _⟩
  | snoc s s' h buf r hc hr hp ih =>
    rcases List.eq_nil_or_concat' g2 with rfl | ⟨g2', y, rfl⟩
    · rw [List.append_nil] at hg
      subst hg
      exact ⟨_, .snoc _ _ _ _ _ _ hc hr hp⟩
    · rw [← List.append_assoc] at hg
      exact ih (List.append_inj' hg rfl).1

/-- Reading to the end is a sequence of calls. -/
theorem readBlocks_fileCalls {rounds bs : Nat} {s0 : W × Ext4File D} :
    ∀ (k : Nat) {s s' : W × Ext4File D} {b : Bytes} {h : List (Bytes × Res (Nat × Bytes))},
      Calls dev s0 h s → readBlocks dev rounds bs k s = (s', .ok (some b)) →
      ∃ g, Calls dev s0 (h ++ g) s' ∧ (∀ y ∈ g, y.1 = zeros bs) ∧ (∃ y ∈ g, AtEnd y.2) ∧ b = dataOf g := by
  intro k
  induction k with
  | zero =>
    intro s s' b h _ hr
    rw [readBlocks] at hr
    cases hr
  | succ k ih =>
    intro s s' b h hcalls hr
    rw [readBlocks] at hr
    rcases hone : Ext4File.readNextBlock dev rounds (zeros bs) s with ⟨s1, r⟩
    match r with
    | .panic => rw [SM.bind_panic (h := hone)] at hr; cases hr
    | .err e => rw [SM.bind_err (h := hone)] at hr; cases hr
    | .ok none => rw [SM.bind_ok (h := hone)] at hr; cases hr
    | .ok (some (n, out)) =>
      rw [SM.bind_ok (h := hone)] at hr
      simp only at hr
      have hcalls1 := Calls.snoc _ _ _ _ (zeros bs) (.ok (n, out)) hcalls ⟨rounds, hone⟩ (fun h => (by cases h))
      by_cases hn : n = 0
      · rw [if_pos hn] at hr
        cases hr
        refine ⟨_, hcalls1, fun y hy => ?_, ⟨_, List.mem_singleton_self _, out, by rw [hn]⟩, ?_⟩
        · rw [List.mem_singleton] at hy
          subst hy
          rfl
        · simp [dataOf, hn]
      · rw [if_neg hn] at hr
        rcases h2 : readBlocks dev rounds bs k s1 with ⟨s2, r2⟩
        match r2 with
        | .panic => rw [SM.bind_panic (h := h2)] at hr; cases hr
        | .err e => rw [SM.bind_err (h := h2)] at hr; cases hr
        | .ok none => rw [SM.bind_ok (h := h2)] at hr; cases hr
        | .ok (some b2) =>
          rw [SM.bind_ok (h := h2)] at hr
          cases hr
          obtain ⟨g, g1, g2, ⟨y, hy, he⟩, g3⟩ := ih hcalls1 h2
          refine ⟨(zeros bs, .ok (n, out)) :: g, by simpa using g1, fun y hy => ?_,
            ⟨y, List.mem_cons_of_mem _ hy, he⟩, ?_⟩
          · rcases List.mem_cons.1 hy with rfl | hy
            · rfl
            · exact g2 y hy
          · rw [g3]
            rfl

/-- Looking up is a sequence of calls. -/
theorem lookUp_dirCalls {rounds : Nat} {name : Bytes} {s0 : W × Ext4Directory D} :
    ∀ (k : Nat) {s s' : W × Ext4Directory D} {o : Option Nat} {h : List (Res (Option DirEntry))},
      DirCalls dev s0 h s → lookUp dev rounds name k s = (s', .ok (some o)) →
      ∃ es : List DirEntry, (∀ e ∈ es, ¬ Wanted name e) ∧
        match o with
        | none => DirCalls dev s0 (h ++ (es.map fun e => .ok (some e)) ++ [.ok none]) s'
        | some m => ∃ e, Wanted name e ∧ e.inode = m ∧
            DirCalls dev s0 (h ++ (es.map fun e => .ok (some e)) ++ [.ok (some e)]) s' := by
  intro k
  induction k with
  | zero =>
    intro s s' o h _ hr
    rw [lookUp] at hr
    cases hr
  | succ k ih =>
    intro s s' o h hcalls hr
    rcases hone : Ext4Directory.readNextEntry dev rounds s with ⟨s1, r⟩
    match r with
    | .panic => rw [lookUp, SM.bind_panic (h := hone)] at hr; cases hr
    | .err e => rw [lookUp, SM.bind_err (h := hone)] at hr; cases hr
    | .ok none => rw [lookUp, SM.bind_ok (h := hone)] at hr; cases hr
    | .ok (some x) =>
      rw [lookUp_entry hone] at hr
      have hcalls1 := DirCalls.snoc _ _ _ _ (.ok x) hcalls ⟨rounds, hone⟩ (fun h => (by cases h))
      match x with
      | none =>
        cases hr
        exact ⟨[], fun e he => (by cases he), by simpa using hcalls1⟩
      | some e =>
        by_cases hw : Wanted name e
        · have hr : (s1, Res.ok (some (some e.inode))) = (s', Res.ok (some o)) := (if_pos hw).symm.trans hr
          cases hr
          exact ⟨[], fun e he => (by cases he), e, hw, rfl, by simpa using hcalls1⟩
        · have hr : lookUp dev rounds name k s1 = (s', Res.ok (some o)) := (if_neg hw).symm.trans hr
          obtain ⟨es, h1, h2⟩ := ih hcalls1 hr
          refine ⟨e :: es, fun y hy => ?_, ?_⟩
          · rcases List.mem_cons.1 hy with rfl | hy
            · exact hw
            · exact h1 y hy
          · match o with
            | none => simpa using h2
            | some m =>
              obtain ⟨e', k1, k2, k3⟩ := h2
              exact ⟨e', k1, k2, by simpa using k3⟩

/-! ## Records -/

omit [Build] in
/-- Where a result is among those of several reads. -/
theorem flatten_place {α : Type} {r : α} : ∀ (rss : List (List α)) (l : List α), l ++ [r] <+: rss.flatten →
    ∃ rss1 u v rss2, rss = rss1 ++ (u ++ r :: v) :: rss2 ∧ l = rss1.flatten ++ u := by
  intro rss
  induction rss with
  | nil =>
    rintro l ⟨t, h⟩
    simp at h
  | cons rs rss ih =>
    rintro l ⟨t, h⟩
    rw [List.flatten_cons] at h
    by_cases hl : l.length < rs.length
    · refine ⟨[], l, rs.drop (l.length + 1), rss, ?_, by simp⟩
      have h1 := congrArg (List.take (l.length + 1)) h
      have hlr : (l ++ [r]).length = l.length + 1 := by simp
      rw [← hlr, List.take_left, hlr, List.take_append_of_le_length (l₁ := rs) (by omega)] at h1
      rw [List.nil_append]
      congr 1
      rw [List.append_cons, h1, List.take_append_drop]
    · obtain ⟨l', rfl⟩ : ∃ l', l = rs ++ l' := by
        have h1 := congrArg (List.take rs.length) h
        rw [List.append_assoc, List.take_append_of_le_length (by omega),
          List.take_append_of_le_length (Nat.le_refl _), List.take_length] at h1
        exact ⟨l.drop rs.length, by conv_lhs => rw [← List.take_append_drop rs.length l, h1]⟩
      rw [List.append_assoc, List.append_assoc, List.append_cancel_left_eq] at h
      obtain ⟨rss1, u, v, rss2, h1, h2⟩ := ih l' ⟨t, by rw [List.append_assoc]; exact h⟩
      refine ⟨rs :: rss1, u, v, rss2, by rw [h1]; rfl, by rw [h2, List.flatten_cons, List.append_assoc]⟩

omit [Build] in
/-- The records of the blocks read, if no read and no block gave an error. -/
theorem read_records {seed : Option Nat} {bs : Nat} {g : List (Bytes × Res (Nat × Bytes))}
    {rss : List (List (Res (Option DirEntry)))}
    (h : List.Forall₂ (fun x rs => ReadResults seed bs x.2 rs) g rss)
    (herr : ∀ e, Res.err e ∉ rss.flatten) :
    (∀ y ∈ g, ∀ n out, y.2 = .ok (n, out) → n ≠ 0 → n = bs) ∧
    ∃ ess : List (List Bytes), rss.flatten = ess.flatten.map (fun e => .ok (some ⟨e⟩)) ∧
      List.Forall₂ (fun y es => ∃ n b, y.2 = .ok (n, b) ∧ BlockSound seed b ∧
        Tiles (b.take (recordsEnd seed b)) es) (g.filter fun y => gotData y.2) ess := by
  induction h with
  | nil => exact ⟨fun y hy => (by cases hy), [], rfl, .nil⟩
  | @cons y rs g rss h1 _ ih =>
    rw [List.flatten_cons] at herr
    obtain ⟨i1, ess, i2, i3⟩ := ih fun e he => herr e (List.mem_append_right _ he)
    have herr1 : ∀ e, Res.err e ∉ rs := fun e he => herr e (List.mem_append_left _ he)
    obtain ⟨buf, r⟩ := y
    match r, h1 with
    | .err e, h1 =>
      have h1 : rs = [.err e] := h1
      exact absurd (by rw [h1]; simp) (herr1 e)
    | .ok (n, b), h1 =>
      have h1 : (n = 0 ∧ rs = []) ∨ (n ≠ 0 ∧ n = bs ∧ BlockResults seed b rs) ∨
        (n ≠ 0 ∧ n ≠ bs ∧ rs = [.err .invalidData]) := h1
      rcases h1 with ⟨rfl, rfl⟩ | ⟨hn, hnb, h1⟩ | ⟨-, -, rfl⟩
      · refine ⟨fun y hy n out he hn => ?_, ess, i2, ?_⟩
        · rcases List.mem_cons.1 hy with rfl | hy
          · cases he
            exact absurd rfl hn
          · exact i1 y hy n out he hn
        · rw [List.filter_cons_of_neg (by simp [gotData])]
          exact i3
      · rcases h1 with ⟨k1, es, k2, rfl⟩ | ⟨-, rfl⟩
        · refine ⟨fun y hy m out he hm => ?_, es :: ess, by
            rw [List.flatten_cons, List.flatten_cons, List.map_append, i2], ?_⟩
          · rcases List.mem_cons.1 hy with rfl | hy
            · cases he
              exact hnb
            · exact i1 y hy m out he hm
          · rw [List.filter_cons_of_pos (by simp [gotData, hn])]
            exact .cons ⟨n, b, rfl, k1, k2⟩ i3
        · exact absurd (by simp) (herr1 .invalidData)
      · exact absurd (by simp) (herr1 .invalidData)

omit [Build] in
theorem entry_name (e : Bytes) : (DirEntry.mk e).name.bytes = shownName e := by
  show (e.drop (dirEntryLayout.offset .name)).takeWhile _ = _
  rw [dirName_offset]
  rfl

omit [Build] in
theorem wanted_shows {name e : Bytes} : Wanted name ⟨e⟩ ↔ Shows name e := by
  unfold Wanted Shows
  rw [entry_inode, entry_name]

/-- An inode that was opened can be read. -/
theorem openFile_readable (hv : VolumeSpec F dev G Is At) {c : Bytes} {w w' : W}
    {fs fs' : Ext4Fs D} (hG : G w) (ho : Opened Is c fs) {n : Nat} {x : OpenedFile D}
    (h : Ext4Fs.openFile dev n (w, fs) = ((w', fs'), .ok x)) : InodeReadable c n := by
  obtain ⟨w1, fs1, r, h1, -, -, h2⟩ := Ext4Fs.openFile_spec hv hG ho n
  rw [h] at h1
  cases h1
  rcases h2 with ⟨-, e, h2⟩ | ⟨w1, fs2, q, hG1, ho2, hs, h3, h2⟩
  · cases h2
  rcases q with i | e | _
  · obtain ⟨a1, a2, a3, a5, a4, -⟩ := C59_slot hv c w1 w' fs fs' hG1 ho n i h3
    have hp : ¬ (32 < extraOf (inodeBytes c n) ∨ (inodeBytes c n).length < 128 + extraOf (inodeBytes c n)) := by
      rw [← C60_panics_iff fs.superblock n]
      intro hp
      unfold inodeBytes at hp
      rw [a4] at hp
      cases hp
    have hle : (inodeBytes c n).length ≤ le (sbOf c) 0x58 2 := by
      unfold inodeBytes
      rw [List.length_take]
      omega
    exact ⟨a1, a2, a3, a5.resolve_left (by omega), by omega, by omega⟩
  · cases h2
  · cases h2

omit [Build] in
/-- The seed in an inode meets the specification. -/
theorem inodeSeed_of {c : Bytes} {sb : Ext4Superblock} (hsb : sb.bytes = sbOf c) {n : Nat} {i : Inode}
    (hi : Inode.new sb n (inodeBytes c n) = .ok i) : InodeSeed c n i.metadataChecksumSeed := by
  obtain ⟨k1, k2⟩ := C60_seed sb n _ i hi
  rw [hsb] at k1 k2
  obtain ⟨-, -, -, m1, m2, -⟩ := C56_others sb
  rw [hsb] at m1 m2
  refine ⟨fun hc => ?_, k2⟩
  obtain ⟨s', hs', ht'⟩ := k1 hc
  exact ⟨BitVec.ofNat 32 sb.checksumSeed, s', ⟨fun h => by rw [m1 h], fun h => m2 h hc⟩, ht', hs'⟩

/-- Looking up a name in a directory just opened: the records gone by. -/
theorem lookUp_backed (hv : VolumeSpec F dev G Is At) {c : Bytes} (hc : c.length < U64) (hcount : AllCounted c)
    {w w1 w2 : W} {fs fs1 : Ext4Fs D} (hG : G w) (ho : Opened Is c fs) {n rounds k : Nat}
    {d d' : Ext4Directory D} {name : Bytes} {o : Option Nat}
    (hopen : Ext4Fs.openFile dev n (w, fs) = ((w1, fs1), .ok (.directory d)))
    (hlook : lookUp dev rounds name k (w1, d) = ((w2, d'), .ok (some o))) :
    G w2 ∧ Opened Is c fs1 ∧ ∃ xs,
      match o with
      | none => ∃ records, DirectoryStart c n xs records ∧
          sizeOf c n = xs.length * blockSizeOf (sbOf c) ∧ ∀ x ∈ records, ¬ Shows name x
      | some m => ∃ before e after, DirectoryStart c n xs (before ++ e :: after) ∧ Shows name e ∧
          recordInode e = m ∧ ∀ x ∈ before, ¬ Shows name x := by
  have hread := openFile_readable hv hG ho hopen
  obtain ⟨-, -, -, hG1, ho1, i, fs2, hi, ho2, t1, t2, t3, hd⟩ := C75_success hv c w w1 fs fs1 hG ho n _ hopen
  obtain ⟨-, -, e1, -, -, -, -, -, e2, -⟩ := C60_fields _ _ _ i hi
  have e1 : i.fileSizeBytes = sizeOf c n := e1
  have e2 : i.blocksBuffer = rootNode c n := e2
  have hseed := inodeSeed_of ho.superblock hi
  have hw : BlocksCounted c i.fileSizeBytes := by rw [e1]; exact hcount n hread
  obtain ⟨f, hf⟩ : ∃ f, Ext4File.open fs2 i = .ok f := by
    unfold Ext4Directory.open at hd
    split at hd
    · cases hd
    · rcases hf : Ext4File.open fs2 i with f | e | _
      · exact ⟨f, rfl⟩
      · rw [hf] at hd; cases hd
      · rw [hf] at hd; cases hd
  obtain ⟨hinv, -⟩ := Ext4Directory.open_inv (w := w1) hG1 ho2 hd (fun _ => True) trivial hw
  obtain ⟨es, h1, h2⟩ := lookUp_dirCalls k (.nil (w1, d)) hlook
  have hgood : ∀ {h : List (Res (Option DirEntry))} {s : W × Ext4Directory D}, DirCalls dev (w1, d) h s →
      G s.1 := fun hcalls =>
    (Ext4Directory.dirCalls_inv hv hc (Ext4File.closed_true c (blockSizeOf (sbOf c))) hcalls hinv).file.good
  have build : ∀ {g : List (Bytes × Res (Nat × Bytes))} {rss : List (List (Res (Option DirEntry)))}
      {s : W × Ext4File D}, Calls dev (w1, f) g s → (∀ x ∈ g, x.1 = zeros (blockSizeOf (sbOf c))) →
      List.Forall₂ (fun x rs => ReadResults i.metadataChecksumSeed (blockSizeOf (sbOf c)) x.2 rs) g rss →
      (∀ e, Res.err e ∉ rss.flatten) →
      ∃ xs records, DirectoryStart c n xs records ∧
        rss.flatten = records.map (fun e => .ok (some ⟨e⟩)) ∧
        ((∃ y ∈ g, AtEnd y.2) → sizeOf c n = xs.length * blockSizeOf (sbOf c)) := by
    intro g rss s hcalls hbuf hres herr
    obtain ⟨xs, -, x2, -, -, x5, x6, x7⟩ := calls_blocks hv hc hG1 ho2 hf hw hcalls hbuf
    obtain ⟨r1, ess, r2, r3⟩ := read_records hres herr
    rw [e1] at x5 x6
    rw [e2] at x2
    refine ⟨xs, ess.flatten, ⟨hread, t1, t2, t3, x2, x6 r1, ess, _, hseed, ?_, rfl⟩, r2,
      fun hend => Nat.le_antisymm (x5 hend) (x6 r1)⟩
    have hl := x7.length_eq
    have hl2 := r3.length_eq
    rw [List.forall₂_iff_get] at x7 r3 ⊢
    refine ⟨by omega, fun j hj hj2 => ?_⟩
    obtain ⟨a, ha⟩ := x7.2 j (by omega) hj
    obtain ⟨a', b, hb, k1, k2⟩ := r3.2 j (by omega) hj2
    rw [ha] at hb
    cases hb
    exact ⟨k1, k2⟩
  match o with
  | none =>
    refine ⟨hgood h2, ho1, ?_⟩
    rw [List.nil_append] at h2
    obtain ⟨g, rss, s', c1, c2, c3, c4⟩ := C72_follows hv c hc w1 hG1 fs2 ho2 i d hd hw f hf _ _ h2
    have hnone : Res.ok none ∉ rss.flatten := by
      intro hm
      obtain ⟨rs, hrs, hm⟩ := List.mem_flatten.1 hm
      obtain ⟨j, hj, rfl⟩ := List.mem_iff_getElem.1 hrs
      have hl := c3.length_eq
      have := (List.forall₂_iff_get.1 c3).2 j (by omega) hj
      simp only [List.get_eq_getElem] at this
      unfold ReadResults at this
      split at this
      · rcases this with ⟨-, h0⟩ | ⟨-, -, ⟨-, es', -, h0⟩ | ⟨-, h0⟩⟩ | ⟨-, -, h0⟩ <;> rw [h0] at hm <;>
          simp at hm
      · rw [this] at hm
        simp at hm
      · exact this
    rcases c4 with ⟨-, c4⟩ | ⟨g', x, k', rfl, hx, -, c4⟩
    · exact absurd (c4.subset (by simp)) hnone
    · have hl : rss.flatten = es.map fun e => .ok (some e) := by
        rcases k' with _ | k'
        · rw [List.replicate_zero, List.append_nil] at c4
          exact absurd (by rw [← c4]; simp) hnone
        · rw [List.replicate_succ', ← List.append_assoc] at c4
          have c5 := (List.append_inj' c4 rfl).1
          rcases k' with _ | k'
          · rw [c5]; simp
          · have : Res.ok (none : Option DirEntry) ∈ es.map fun e => Res.ok (some e) := by
              rw [c5, List.replicate_succ]; simp
            obtain ⟨e, -, he⟩ := List.mem_map.1 this
            cases he
      have herr : ∀ e, Res.err e ∉ rss.flatten := by
        intro e he
        rw [hl] at he
        obtain ⟨y, -, hy⟩ := List.mem_map.1 he
        cases hy
      obtain ⟨xs, records, d1, d2, d3⟩ := build c1 c2 c3 herr
      refine ⟨xs, records, d1, d3 ⟨x, by simp, hx⟩, fun y hy => ?_⟩
      rw [← wanted_shows]
      refine h1 _ ?_
      have : Res.ok (some (DirEntry.mk y)) ∈ rss.flatten := by
        rw [d2]; exact List.mem_map.2 ⟨y, hy, rfl⟩
      rw [hl] at this
      obtain ⟨e, he, hh⟩ := List.mem_map.1 this
      cases hh
      exact he
  | some m =>
    obtain ⟨e, we, rfl, h2⟩ := h2
    refine ⟨hgood h2, ho1, ?_⟩
    rw [List.nil_append] at h2
    obtain ⟨g, rss, s', c1, c2, c3, c4⟩ := C72_follows hv c hc w1 hG1 fs2 ho2 i d hd hw f hf _ _ h2
    have hpre : (es.map fun e => Res.ok (some e)) ++ [.ok (some e)] <+: rss.flatten := by
      rcases c4 with ⟨-, c4⟩ | ⟨g', x, k', -, -, -, c4⟩
      · exact c4
      · rcases k' with _ | k'
        · rw [List.replicate_zero, List.append_nil] at c4
          rw [c4]
        · rw [List.replicate_succ', ← List.append_assoc] at c4
          have := (List.append_inj' c4 rfl).2
          simp at this
    obtain ⟨rss1, u, v, rss2, p1, p2⟩ := flatten_place rss _ hpre
    subst p1
    rw [List.append_cons] at c3
    obtain ⟨g1, g2, c5, c6, rfl⟩ : ∃ g1 g2, List.Forall₂ (fun x rs => ReadResults i.metadataChecksumSeed
        (blockSizeOf (sbOf c)) x.2 rs) g1 (rss1 ++ [u ++ .ok (some e) :: v]) ∧ True ∧ g = g1 ++ g2 := by
      refine ⟨g.take (rss1 ++ [u ++ .ok (some e) :: v]).length,
        g.drop (rss1 ++ [u ++ .ok (some e) :: v]).length, ?_, trivial, (List.take_append_drop _ _).symm⟩
      have := List.forall₂_take (rss1 ++ [u ++ .ok (some e) :: v]).length c3
      rwa [List.take_left] at this
    obtain ⟨s1, c1⟩ := calls_front c1
    have hu : ∀ r ∈ rss1.flatten ++ u, ∃ x, r = Res.ok (some x) ∧ ¬ Wanted name x := by
      intro r hr
      rw [← p2] at hr
      obtain ⟨x, hx, rfl⟩ := List.mem_map.1 hr
      exact ⟨x, rfl, h1 x hx⟩
    have herr : ∀ e', Res.err e' ∉ (rss1 ++ [u ++ .ok (some e) :: v]).flatten := by
      intro e' he
      rw [List.flatten_append, List.flatten_singleton] at he
      have hnot : ∀ r ∈ rss1.flatten ++ u, r ≠ Res.err e' := by
        intro r hr
        obtain ⟨x, rfl, -⟩ := hu r hr
        exact fun h => (by cases h)
      rcases List.mem_append.1 he with he | he
      · exact hnot _ (List.mem_append_left _ he) rfl
      · have hl := c5.length_eq
        have hlast := (List.forall₂_iff_get.1 c5).2 rss1.length (by rw [hl]; simp) (by simp)
        have hge : (rss1 ++ [u ++ .ok (some e) :: v]).get ⟨rss1.length, by simp⟩ = u ++ .ok (some e) :: v := by
          simp
        rw [hge] at hlast
        unfold ReadResults at hlast
        split at hlast
        · rcases hlast with ⟨-, h0⟩ | ⟨-, -, ⟨-, es', -, h0⟩ | ⟨-, h0⟩⟩ | ⟨-, -, h0⟩
          · simp at h0
          · rw [h0] at he
            obtain ⟨y, -, hy⟩ := List.mem_map.1 he
            cases hy
          · have : Res.ok (some e) ∈ [Res.err ErrKind.invalidData] := by rw [← h0]; simp
            simp at this
          · have : Res.ok (some e) ∈ [Res.err ErrKind.invalidData] := by rw [← h0]; simp
            simp at this
        · rename_i e0 _
          have : Res.ok (some e) ∈ [Res.err e0] := by rw [← hlast]; simp
          simp at this
        · exact hlast
    obtain ⟨xs, records, d1, d2, -⟩ := build c1 (fun x hx => c2 x (List.mem_append_left _ hx)) c5 herr
    rw [List.flatten_append, List.flatten_singleton, ← List.append_assoc] at d2
    obtain ⟨before, rest, rfl, b1, b2⟩ := List.map_eq_append_iff.1 d2.symm
    obtain ⟨e', after, rfl, b3, b4⟩ := List.map_eq_cons_iff.1 b2
    cases b3
    refine ⟨xs, before, e', after, d1, wanted_shows.1 we, (entry_inode e').symm, fun x hx => ?_⟩
    obtain ⟨y, hy, hny⟩ := hu (.ok (some ⟨x⟩)) (by rw [← b1]; exact List.mem_map.2 ⟨x, hx, rfl⟩)
    cases hy
    rw [← wanted_shows]
    exact hny

omit [Build] in
theorem _root_.MdSpec.Reaches.trans {c : Bytes} {a n m : Nat} {front names : List Bytes}
    (h : Reaches c a front n) (h' : Reaches c n names m) : Reaches c a (front ++ names) m := by
  induction h with
  | here => exact h'
  | into n _ name names xs before after e k1 k2 k3 _ ih =>
    exact .into _ _ _ _ xs before after e k1 k2 k3 (ih h')

/-- What a program that follows a path has found is there. -/
theorem follow_backed (hv : VolumeSpec F dev G Is At) {c : Bytes} (hc : c.length < U64) (hcount : AllCounted c)
    {rounds : Nat} : ∀ (names : List Bytes) {n : Nat} {w : W} {fs : Ext4Fs D} {s' : W × Ext4Fs D} {out : Found},
      G w → Opened Is c fs → follow dev rounds names n (w, fs) = (s', .ok out) → out ≠ .running →
      ∀ front, Reaches c 2 front n → Backed c (front ++ names) out := by
  intro names
  induction names with
  | nil =>
    intro n w fs s' out hG ho h hne front hr
    rw [List.append_nil]
    rw [follow] at h
    rcases h1 : Ext4Fs.openFile dev n (w, fs) with ⟨⟨w1, fs1⟩, x⟩
    match x with
    | .panic => rw [SM.bind_panic (h := h1)] at h; cases h
    | .err e => rw [SM.bind_err (h := h1)] at h; cases h
    | .ok (.directory d) =>
      rw [SM.bind_ok (h := h1)] at h
      cases h
      obtain ⟨-, -, -, -, -, i, fs2, -, -, t1, -⟩ := C75_success hv c w w1 fs fs1 hG ho n _ h1
      exact .notAFile n hr (openFile_readable hv hG ho h1) (by omega)
    | .ok (.unsupported t) =>
      rw [SM.bind_ok (h := h1)] at h
      cases h
      obtain ⟨-, -, -, -, -, i, fs2, -, -, t1, -⟩ := C75_success hv c w w1 fs fs1 hG ho n _ h1
      exact .notAFile n hr (openFile_readable hv hG ho h1) t1
    | .ok (.regularFile f) =>
      rw [SM.bind_ok (h := h1)] at h
      simp only at h
      have hread := openFile_readable hv hG ho h1
      obtain ⟨-, -, -, hG1, ho1, i, fs2, hi, ho2, t1, t2, hf, -⟩ :=
        C75_success hv c w w1 fs fs1 hG ho n _ h1
      obtain ⟨-, -, e1, -, -, -, -, -, e2, -⟩ := C60_fields _ _ _ i hi
      have e1 : i.fileSizeBytes = sizeOf c n := e1
      have e2 : i.blocksBuffer = rootNode c n := e2
      have hw : BlocksCounted c i.fileSizeBytes := by rw [e1]; exact hcount n hread
      obtain ⟨hinv, -⟩ := Ext4File.open_inv (w := w1) hG1 ho2 hf (fun _ => True) trivial
      have h6 : (SM.lift f.blockSize : SM (W × Ext4Fs D) Nat) (w1, fs1)
          = ((w1, fs1), .ok (blockSizeOf (sbOf c))) := by
        rw [SM.lift_apply, Ext4File.blockSize_eq hinv.opened]
      rw [SM.bind_ok (h := h6)] at h
      rcases h2 : readBlocks dev rounds (blockSizeOf (sbOf c)) rounds (w1, f) with ⟨⟨w2, f2⟩, r⟩
      have h3 := onHandle_eq fs1 h2
      match r with
      | .panic => rw [SM.bind_panic (h := h3)] at h; cases h
      | .err e => rw [SM.bind_err (h := h3)] at h; cases h
      | .ok none =>
        rw [SM.bind_ok (h := h3)] at h
        cases h
        exact absurd rfl hne
      | .ok (some b) =>
        rw [SM.bind_ok (h := h3)] at h
        cases h
        obtain ⟨g, g1, g2, g3, g4⟩ := readBlocks_fileCalls rounds (.nil (w1, f)) h2
        obtain ⟨xs, -, x2, x3, x4, x5, -, -⟩ := calls_blocks hv hc hG1 ho2 hf hw g1 g2
        simp only [List.nil_append] at x3 x5
        rw [e1] at x3 x4 x5
        rw [e2] at x2
        rw [g4, x3]
        exact .content n xs hr hread t1 t2 x2 (x5 g3) x4
  | cons name names ih =>
    intro n w fs s' out hG ho h hne front hr
    rw [follow] at h
    rcases h1 : Ext4Fs.openFile dev n (w, fs) with ⟨⟨w1, fs1⟩, x⟩
    match x with
    | .panic => rw [SM.bind_panic (h := h1)] at h; cases h
    | .err e => rw [SM.bind_err (h := h1)] at h; cases h
    | .ok (.regularFile f) =>
      rw [SM.bind_ok (h := h1)] at h
      cases h
      obtain ⟨-, -, -, -, -, i, fs2, -, -, t1, -⟩ := C75_success hv c w w1 fs fs1 hG ho n _ h1
      exact .notADirectory front names name n rfl hr (openFile_readable hv hG ho h1) (by omega)
    | .ok (.unsupported t) =>
      rw [SM.bind_ok (h := h1)] at h
      cases h
      obtain ⟨-, -, -, -, -, i, fs2, -, -, -, t1, -⟩ := C75_success hv c w w1 fs fs1 hG ho n _ h1
      exact .notADirectory front names name n rfl hr (openFile_readable hv hG ho h1) t1
    | .ok (.directory d) =>
      rw [SM.bind_ok (h := h1)] at h
      simp only at h
      rcases h2 : lookUp dev rounds name rounds (w1, d) with ⟨⟨w2, d2⟩, r⟩
      have h3 := onHandle_eq fs1 h2
      match r with
      | .panic => rw [SM.bind_panic (h := h3)] at h; cases h
      | .err e => rw [SM.bind_err (h := h3)] at h; cases h
      | .ok none =>
        rw [SM.bind_ok (h := h3)] at h
        cases h
        exact absurd rfl hne
      | .ok (some none) =>
        rw [SM.bind_ok (h := h3)] at h
        cases h
        obtain ⟨-, -, xs, records, k1, k2, k3⟩ := lookUp_backed hv hc hcount hG ho h1 h2
        exact .missing front names name n xs records rfl hr k1 k2 k3
      | .ok (some (some m)) =>
        rw [SM.bind_ok (h := h3)] at h
        simp only at h
        obtain ⟨hG2, ho1, xs, before, e, after, k1, k2, k3, k4⟩ := lookUp_backed hv hc hcount hG ho h1 h2
        subst k3
        rw [List.append_cons]
        exact ih hG2 ho1 h hne (front ++ [name])
          (hr.trans (.into _ _ _ _ xs before after e k1 k2 k4 (.here _)))

end
end MdRecover
