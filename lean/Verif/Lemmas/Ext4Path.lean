import Verif.Props.Ext4Open
import Verif.Props.Crc
import Verif.Spec.Ext4Path

namespace MdRecover
open MdSpec
variable [Build]

omit [Build] in
theorem isCrc32c_unique {i : BitVec 32} {b : Bytes} {x y : BitVec 32} (hx : IsCrc32c i b x)
    (hy : IsCrc32c i b y) : x = y :=
  ((C52_polynomial_division i b x).2 hx).symm.trans ((C52_polynomial_division i b y).2 hy)

omit [Build] in
/-- The seed in an inode is that of the specification. -/
theorem inodeSeed_eq {c : Bytes} {sb : Ext4Superblock} (hsb : sb.bytes = sbOf c) {n : Nat} {i : Inode}
    (hi : Inode.new sb n (inodeBytes c n) = .ok i) {seed : Option Nat} (h : InodeSeed c n seed) :
    i.metadataChecksumSeed = seed := by
  obtain ⟨k1, k2⟩ := C60_seed sb n _ i hi
  rw [hsb] at k1 k2
  obtain ⟨-, -, -, m1, m2, -⟩ := C56_others sb
  rw [hsb] at m1 m2
  by_cases hc : HasChecksums c
  · obtain ⟨s, t, ⟨v1, v2⟩, ht, rfl⟩ := h.1 hc
    obtain ⟨s', hs', ht'⟩ := k1 hc
    have hs : s = BitVec.ofNat 32 sb.checksumSeed := by
      by_cases h13 : le (sbOf c) 0x60 4 / 2 ^ 13 % 2 = 1
      · rw [v1 h13, m1 h13]
      · exact isCrc32c_unique (v2 h13) (m2 h13 hc)
    rw [hs] at ht
    rw [hs', isCrc32c_unique ht ht']
  · rw [h.2 hc, k2 hc]

section
variable {W D : Type} {F : Prop} {dev : StreamDev W D} {G : W → Prop} {Is : D → Bytes → Prop}
  {At : W → D → Nat → Prop}

omit [Build] in
theorem onHandle_eq {X S α : Type} {x x' : X} {m : SM (W × X) α} {w w' : W} {r : Res α} (s : S)
    (h : m (w, x) = ((w', x'), r)) : onHandle x m (w, s) = ((w', s), r) := by
  simp only [onHandle, SM.zoom, h]

/-! ## Looking up -/

/-- The program looks for this entry. -/
def Wanted (name : Bytes) (e : DirEntry) : Prop := e.inode ≠ 0 ∧ e.name.bytes = name

instance (name : Bytes) (e : DirEntry) : Decidable (Wanted name e) := by unfold Wanted; infer_instance

theorem lookUp_entry {rounds k : Nat} {name : Bytes} {s s' : W × Ext4Directory D}
    {o : Option DirEntry}
    (h : Ext4Directory.readNextEntry dev rounds s = (s', .ok (some o))) :
    lookUp dev rounds name (k + 1) s =
      match o with
      | none => (s', .ok (some none))
      | some e => if Wanted name e then (s', .ok (some (some e.inode))) else lookUp dev rounds name k s' := by
  rw [lookUp, SM.bind_ok (h := h)]
  cases o with
  | none => rfl
  | some e =>
    simp only [Wanted]
    by_cases hw : e.inode ≠ 0 ∧ e.name.bytes = name
    · rw [if_pos hw]; exact (if_pos hw).symm
    · rw [if_neg hw]; exact (if_neg hw).symm

omit [Build] in
theorem left_good {c : Bytes} {i : Inode} {s : W × Ext4Directory D} {rs : List (Res (Option DirEntry))}
    (h : Ext4Directory.Left Is G c i s rs) : G s.1 := by
  obtain ⟨p, xs, todo, rss, h1, -⟩ := h
  exact h1.file.good

/-- Entries that are not wanted, and then one that is. -/
theorem lookUp_found (hv : VolumeSpec False dev G Is At) {c : Bytes} (hc : c.length < U64) {i : Inode}
    {name : Bytes} {e : DirEntry} (he : Wanted name e) (rest : List (Res (Option DirEntry))) :
    ∀ (before : List DirEntry) (s : W × Ext4Directory D), (∀ x ∈ before, ¬ Wanted name x) →
      Ext4Directory.Left Is G c i s ((before.map fun x => .ok (some x)) ++ .ok (some e) :: rest) →
      ∃ s' N, G s'.1 ∧ ∀ rounds, N ≤ rounds → ∀ k, before.length < k →
        lookUp dev rounds name k s = (s', .ok (some (some e.inode))) := by
  intro before
  induction before with
  | nil =>
    intro s _ hl
    obtain ⟨s', r, h1, rfl, h2, h3⟩ := Ext4Directory.call_gives hv hc hl
    obtain ⟨N, h4⟩ := Ext4Directory.entryReturns_enough h1
    refine ⟨s', N, left_good h3, fun rounds hr k hk => ?_⟩
    obtain ⟨k, rfl⟩ : ∃ j, k = j + 1 := ⟨k - 1, by simp only [List.length_nil] at hk; omega⟩
    rw [lookUp_entry (o := some e) (h4 rounds hr)]
    exact if_pos he
  | cons x before ih =>
    intro s hx hl
    obtain ⟨s1, r, h1, rfl, h2, h3⟩ := Ext4Directory.call_gives hv hc hl
    obtain ⟨N1, h4⟩ := Ext4Directory.entryReturns_enough h1
    obtain ⟨s', N, hG, h5⟩ := ih s1 (fun y hy => hx y (List.mem_cons_of_mem _ hy)) h3
    refine ⟨s', N1 + N, hG, fun rounds hr k hk => ?_⟩
    obtain ⟨k, rfl⟩ : ∃ j, k = j + 1 := ⟨k - 1, by omega⟩
    rw [lookUp_entry (o := some x) (h4 rounds (by omega))]
    refine Eq.trans (if_neg (hx x List.mem_cons_self)) (h5 rounds (by omega) k ?_)
    simp only [List.length_cons] at hk
    omega

/-- No entry is wanted. -/
theorem lookUp_missing (hv : VolumeSpec False dev G Is At) {c : Bytes} (hc : c.length < U64) {i : Inode}
    {name : Bytes} :
    ∀ (all : List DirEntry) (s : W × Ext4Directory D), (∀ x ∈ all, ¬ Wanted name x) →
      Ext4Directory.Left Is G c i s (all.map fun x => .ok (some x)) →
      ∃ s' N, G s'.1 ∧ ∀ rounds, N ≤ rounds → ∀ k, all.length < k →
        lookUp dev rounds name k s = (s', .ok (some none)) := by
  intro all
  induction all with
  | nil =>
    intro s _ hl
    obtain ⟨s', r, h1, rfl, h2, h3⟩ := Ext4Directory.call_gives hv hc hl
    obtain ⟨N, h4⟩ := Ext4Directory.entryReturns_enough h1
    refine ⟨s', N, left_good h3, fun rounds hr k hk => ?_⟩
    obtain ⟨k, rfl⟩ : ∃ j, k = j + 1 := ⟨k - 1, by simp only [List.length_nil] at hk; omega⟩
    exact lookUp_entry (o := none) (h4 rounds hr)
  | cons x all ih =>
    intro s hx hl
    obtain ⟨s1, r, h1, rfl, h2, h3⟩ := Ext4Directory.call_gives hv hc hl
    obtain ⟨N1, h4⟩ := Ext4Directory.entryReturns_enough h1
    obtain ⟨s', N, hG, h5⟩ := ih s1 (fun y hy => hx y (List.mem_cons_of_mem _ hy)) h3
    refine ⟨s', N1 + N, hG, fun rounds hr k hk => ?_⟩
    obtain ⟨k, rfl⟩ : ∃ j, k = j + 1 := ⟨k - 1, by omega⟩
    rw [lookUp_entry (o := some x) (h4 rounds (by omega))]
    refine Eq.trans (if_neg (hx x List.mem_cons_self)) (h5 rounds (by omega) k ?_)
    simp only [List.length_cons] at hk
    omega

/-- A directory just opened: its records are still to be returned. -/
theorem directory_left (hv : VolumeSpec False dev G Is At) {c : Bytes} (hc : c.length < U64) {w : W}
    {fs : Ext4Fs D} (hG : G w) (ho : Opened Is c fs) {n : Nat} {records : List Bytes}
    (hd : DirectoryAt c n records) :
    ∃ w' fs' d i, Ext4Fs.openFile dev n (w, fs) = ((w', fs'), .ok (.directory d)) ∧ Opened Is c fs' ∧
      Ext4Directory.Left Is G c i (w', d) (records.map fun e => .ok (some ⟨e⟩)) := by
  obtain ⟨xs, ess, seed, hx, hin, h32, hsize, hseed, hes, rfl⟩ := hd.blocks
  obtain ⟨w', fs', r, h1, hG', ho', -, -, h2, -⟩ := C75_outcome hv c hc w fs hG ho n hd.readable
  obtain ⟨d, rfl⟩ := h2 hd.type hd.notHashed hd.extents
  obtain ⟨-, -, -, -, -, i, fs2, hi, ho2, -, -, -, h3⟩ := C75_success hv c w w' fs fs' hG ho n _ h1
  obtain ⟨-, -, k1, -, -, -, -, -, k2, -⟩ := C60_fields _ _ _ i hi
  have k1 : i.fileSizeBytes = sizeOf c n := k1
  have k2 : i.blocksBuffer = rootNode c n := k2
  have k3 := inodeSeed_eq ho.superblock hi hseed
  obtain ⟨hinv, g1, g2, g3⟩ := Ext4Directory.open_inv (w := w') hG' ho2 h3 (fun _ => True) trivial
    (.inr (by rw [k1, hsize]; exact Nat.mul_le_mul_right _ (by omega)))
  have hpen : Ext4File.Pending c (blockSizeOf (sbOf c)) d.internal.stack 0 xs := by
    rw [g3, ← List.append_nil xs]
    refine .tree _ _ _ _ _ _ ?_ (.nil _)
    show Contiguous c _ i.blocksBuffer 0 0 xs
    rw [k2]
    exact hx
  refine ⟨w', fs', d, i, h1, ho', 0, xs, [], ess.map fun es => es.map fun e => .ok (some ⟨e⟩),
    ⟨hinv.file, g2, hpen, by rw [Nat.zero_add, k1]; exact hsize, by rw [Nat.zero_add]; exact h32, hin⟩,
    .inl ⟨g1, rfl⟩, ?_, ?_⟩
  · rw [k3]
    rw [List.forall₂_map_right_iff]
    exact hes.imp fun x es h => .inl ⟨h.1, es, h.2, rfl⟩
  · rw [List.map_nil, List.nil_append, List.map_flatten]

/-! ## Reading to the end -/

theorem readBlocks_zero {rounds bs k : Nat} {s s' : W × Ext4File D} {b : Bytes}
    (h : Ext4File.readNextBlock dev rounds (zeros bs) s = (s', .ok (some (0, b)))) :
    readBlocks dev rounds bs (k + 1) s = (s', .ok (some [])) := by
  rw [readBlocks, SM.bind_ok (h := h)]
  rfl

theorem readBlocks_block {rounds bs k n : Nat} {s s' s'' : W × Ext4File D} {b : Bytes} {r : Option Bytes}
    (h : Ext4File.readNextBlock dev rounds (zeros bs) s = (s', .ok (some (n, b)))) (hn : n ≠ 0)
    (h2 : readBlocks dev rounds bs k s' = (s'', .ok r)) :
    readBlocks dev rounds bs (k + 1) s = (s'', .ok (r.map (b.take n ++ ·))) := by
  rw [readBlocks, SM.bind_ok (h := h)]
  simp only [if_neg hn]
  rw [SM.bind_ok (h := h2)]
  rfl

theorem returns_enough {s s' : W × Ext4File D} {buf : Bytes} {r : Res (Nat × Bytes)}
    (h : Returns dev s buf s' r) :
    ∃ N, ∀ rounds, N ≤ rounds → Ext4File.readNextBlock dev rounds buf s = (s', some <$> r) := by
  obtain ⟨N, h⟩ := h
  refine ⟨N, fun rounds hr => ?_⟩
  have := Ext4File.readNextBlock_more h (Ext4File.map_some_ne r) (rounds - N)
  rwa [show N + (rounds - N) = rounds by omega] at this

/-- Reading the blocks `xs`, from block `p` of the file on. -/
theorem readBlocks_pending (hv : VolumeSpec False dev G Is At) {c : Bytes} (hc : c.length < U64)
    {i : Inode} :
    ∀ (xs : List Nat) (p : Nat) (s : W × Ext4File D),
      (∀ x ∈ xs, BlockInside c (blockSizeOf (sbOf c)) x) →
      Ext4File.Inv Is G c (fun _ => True) i s → s.2.blockPos = p →
      Ext4File.Pending c (blockSizeOf (sbOf c)) s.2.stack p xs →
      i.fileSizeBytes ≤ (p + xs.length) * blockSizeOf (sbOf c) →
      (xs ≠ [] → (p + xs.length) * blockSizeOf (sbOf c)
        < i.fileSizeBytes + blockSizeOf (sbOf c)) → p + xs.length < U32 →
      ∃ s' N, G s'.1 ∧ ∀ rounds, N ≤ rounds → ∀ k, xs.length < k →
        readBlocks dev rounds (blockSizeOf (sbOf c)) k s = (s', .ok (some
          ((xs.flatMap (blockOf c (blockSizeOf (sbOf c)))).take
            (i.fileSizeBytes - p * blockSizeOf (sbOf c))))) := by
  intro xs
  have hz : (zeros (blockSizeOf (sbOf c))).length = blockSizeOf (sbOf c) := List.length_replicate
  induction xs with
  | nil =>
    intro p s _ hi hp hpen h1 _ _
    obtain ⟨s1, h4, hi1, -, -⟩ := Ext4File.pending_end hv hc (buf := zeros (blockSizeOf (sbOf c)))
      (Nat.le_of_eq hz.symm) hi hp hpen (by simpa using h1)
    obtain ⟨N, h5⟩ := returns_enough h4
    refine ⟨s1, N, hi1.good, fun rounds hr k hk => ?_⟩
    obtain ⟨k, rfl⟩ : ∃ j, k = j + 1 := ⟨k - 1, by simp only [List.length_nil] at hk; omega⟩
    rw [readBlocks_zero (h5 rounds hr), List.flatMap_nil, List.take_nil]
  | cons x xs ih =>
    intro p s hin hi hp hpen h1 h2 h3
    have h2 := h2 (fun h => (by cases h))
    simp only [List.length_cons] at h1 h2 h3
    have h4 : (p + (xs.length + 1)) * blockSizeOf (sbOf c)
        = p * blockSizeOf (sbOf c) + xs.length * blockSizeOf (sbOf c) + blockSizeOf (sbOf c) := by
      rw [Nat.add_mul, Nat.add_mul]; omega
    have hx := hin x List.mem_cons_self
    obtain ⟨s1, h5, hi1, hp1, hpen1⟩ := Ext4File.pending_next hv hc
      (buf := zeros (blockSizeOf (sbOf c))) (Nat.le_of_eq hz.symm) hi hp hpen (by omega) (by omega)
      (by rw [hz]; exact hx)
    have hlen : p + 1 + xs.length = p + (xs.length + 1) := by omega
    obtain ⟨s', N, hG, h6⟩ := ih (p + 1) s1 (fun y hy => hin y (List.mem_cons_of_mem _ hy)) hi1 hp1 hpen1
      (by rw [hlen]; exact h1) (fun _ => by rw [hlen]; exact h2) (by omega)
    obtain ⟨N1, h7⟩ := returns_enough h5
    refine ⟨s', N1 + N, hG, fun rounds hr k hk => ?_⟩
    obtain ⟨k, rfl⟩ : ∃ j, k = j + 1 := ⟨k - 1, by omega⟩
    simp only [List.length_cons] at hk
    have hpos := Ext4Directory.blockSize_ge c
    rw [readBlocks_block (h7 rounds (by omega)) (by omega) (h6 rounds (by omega) k (by omega))]
    have hb : (blockOf c (blockSizeOf (sbOf c)) x).length = blockSizeOf (sbOf c) := by
      unfold BlockInside at hx
      unfold blockOf
      rw [List.length_take, List.length_drop]; omega
    rw [Option.map_some, List.flatMap_cons, List.take_append, hb, hz]
    have e1 : (slice c (x * blockSizeOf (sbOf c)) (blockSizeOf (sbOf c))).take
        (min (i.fileSizeBytes - p * blockSizeOf (sbOf c)) (blockSizeOf (sbOf c)))
        = (blockOf c (blockSizeOf (sbOf c)) x).take (i.fileSizeBytes - p * blockSizeOf (sbOf c)) := by
      unfold slice blockOf
      rw [List.take_take, List.take_take]
      congr 1
      omega
    rw [e1]
    have e2 : i.fileSizeBytes - (p + 1) * blockSizeOf (sbOf c)
        = i.fileSizeBytes - p * blockSizeOf (sbOf c) - blockSizeOf (sbOf c) := by
      rw [Nat.add_mul]; omega
    rw [e2]

/-- Opening a file and reading it to the end. -/
theorem follow_file (hv : VolumeSpec False dev G Is At) {c : Bytes} (hc : c.length < U64) {w : W}
    {fs : Ext4Fs D} (hG : G w) (ho : Opened Is c fs) {n : Nat} {content : Bytes}
    (hf : FileAt c n content) :
    ∃ s' N, ∀ rounds, N ≤ rounds → follow dev rounds [] n (w, fs) = (s', .ok (.content content)) := by
  obtain ⟨xs, hx, hin, h32, hsize, hlast, rfl⟩ := hf.blocks
  obtain ⟨w', fs', r, h1, hG', ho', h2, -⟩ := C75_outcome hv c hc w fs hG ho n hf.readable
  obtain ⟨f, rfl⟩ := h2 hf.type hf.extents
  obtain ⟨-, -, -, -, -, i, fs2, hi, ho2, -, -, h3, -⟩ := C75_success hv c w w' fs fs' hG ho n _ h1
  obtain ⟨-, -, k1, -, -, -, -, -, k2, -⟩ := C60_fields _ _ _ i hi
  have k1 : i.fileSizeBytes = sizeOf c n := k1
  have k2 : i.blocksBuffer = rootNode c n := k2
  obtain ⟨hinv, g1, -, g3⟩ := Ext4File.open_inv (w := w') hG' ho2 h3 (fun _ => True) trivial
  have hpen : Ext4File.Pending c (blockSizeOf (sbOf c)) f.stack 0 xs := by
    rw [g3, ← List.append_nil xs]
    refine .tree _ _ _ _ _ _ ?_ (.nil _)
    show Contiguous c _ i.blocksBuffer 0 0 xs
    rw [k2]
    exact hx
  obtain ⟨⟨w2, f2⟩, N, -, h4⟩ := readBlocks_pending hv hc xs 0 (w', f) hin hinv g1 hpen
    (by rw [Nat.zero_add, k1]; exact hsize) (by rw [Nat.zero_add, k1]; exact hlast)
    (by rw [Nat.zero_add]; exact h32)
  refine ⟨(w2, fs'), N + xs.length + 1, fun rounds hr => ?_⟩
  have h5 := onHandle_eq fs' (h4 rounds (by omega) rounds (by omega))
  rw [follow, SM.bind_ok (h := h1)]
  simp only
  have h6 : (SM.lift f.blockSize : SM (W × Ext4Fs D) Nat) (w', fs') = ((w', fs'), .ok (blockSizeOf (sbOf c))) := by
    rw [SM.lift_apply, Ext4File.blockSize_eq hinv.opened]
  rw [SM.bind_ok (h := h6), SM.bind_ok (h := h5), k1, Nat.zero_mul, Nat.sub_zero]
  rfl

/-! ## Following -/

omit [Build] in
theorem directory_record {c : Bytes} {n : Nat} {records : List Bytes} (h : DirectoryAt c n records) :
    ∀ e ∈ records, IsRecord e := by
  obtain ⟨xs, ess, seed, -, -, -, -, -, hes, rfl⟩ := h.blocks
  intro e he
  obtain ⟨es, h1, h2⟩ := List.mem_flatten.1 he
  obtain ⟨k, hk, rfl⟩ := List.mem_iff_getElem.1 h1
  have hl := hes.length_eq
  exact (List.forall₂_iff_get.1 hes).2 k (by omega) hk |>.2.1 e h2

omit [Build] in
theorem entry_inode (e : Bytes) : (DirEntry.mk e).inode = recordInode e :=
  dirEntry_at (f := .inode) (off := 0) (w := 4) (by decide +kernel) e

omit [Build] in
/-- The program looks for the entries with the name. -/
theorem wanted_iff {name e : Bytes} (hr : IsRecord e) (hc : recordInode e ≠ 0 → CleanName e) :
    Wanted name ⟨e⟩ ↔ Names name e := by
  unfold Wanted Names
  rw [entry_inode]
  refine and_congr_right fun h => ?_
  have : (DirEntry.mk e).name.bytes = recordName e := (C70_name_partial ⟨e⟩ hr).2 (hc h)
  rw [this]

theorem follow_into {rounds n m : Nat} {name : Bytes} {names : List Bytes} {w w' w'' : W} {fs fs' : Ext4Fs D}
    {d d' : Ext4Directory D} (h1 : Ext4Fs.openFile dev n (w, fs) = ((w', fs'), .ok (.directory d)))
    (h2 : lookUp dev rounds name rounds (w', d) = ((w'', d'), .ok (some (some m)))) :
    follow dev rounds (name :: names) n (w, fs) = follow dev rounds names m (w'', fs') := by
  rw [follow, SM.bind_ok (h := h1)]
  simp only
  rw [SM.bind_ok (h := onHandle_eq fs' h2)]

/-- The program follows a path. -/
theorem follow_leads (hv : VolumeSpec False dev G Is At) {c : Bytes} (hc : c.length < U64) {n m : Nat}
    {front : List Bytes} (h : Leads c CleanName n front m) :
    ∀ {w : W} {fs : Ext4Fs D}, G w → Opened Is c fs →
      ∃ w' fs' N, G w' ∧ Opened Is c fs' ∧ ∀ rounds, N ≤ rounds → ∀ rest,
        follow dev rounds (front ++ rest) n (w, fs) = follow dev rounds rest m (w', fs') := by
  induction h with
  | here n => exact fun {w fs} hG ho => ⟨w, fs, 0, hG, ho, fun _ _ _ => rfl⟩
  | into n m name names before after e hd hn hb hcl _ ih =>
    intro w fs hG ho
    obtain ⟨w1, fs1, d, i, h1, ho1, hleft⟩ := directory_left hv hc hG ho hd
    have hrec := directory_record hd
    have hw : ∀ x ∈ before ++ [e], (Wanted name ⟨x⟩ ↔ Names name x) := fun x hx =>
      wanted_iff (hrec x (by
        rcases List.mem_append.1 hx with h | h
        · exact List.mem_append_left _ h
        · rw [List.mem_singleton] at h; subst h; simp)) (hcl x hx)
    have hleft : Ext4Directory.Left Is G c i (w1, d) (((before.map DirEntry.mk).map fun x => .ok (some x)) ++
        .ok (some ⟨e⟩) :: after.map fun e => .ok (some ⟨e⟩)) := by
      rw [List.map_map]
      rw [List.map_append, List.map_cons] at hleft
      exact hleft
    obtain ⟨⟨w2, d2⟩, N1, hG2, h2⟩ := lookUp_found hv hc
      ((hw e (by simp)).2 hn) _ (before.map DirEntry.mk) (w1, d) (fun x hx => by
        obtain ⟨y, hy, rfl⟩ := List.mem_map.1 hx
        rw [hw y (List.mem_append_left _ hy)]
        exact hb y hy) hleft
    rw [entry_inode] at h2
    obtain ⟨w', fs', N, hG', ho', h3⟩ := ih (w := w2) hG2 ho1
    refine ⟨w', fs', N1 + before.length + 1 + N, hG', ho', fun rounds hr rest => ?_⟩
    rw [List.cons_append, follow_into h1 (h2 rounds (by omega) rounds (by rw [List.length_map]; omega))]
    exact h3 rounds (by omega) rest

/-- What the program finds. -/
theorem follow_says (hv : VolumeSpec False dev G Is At) {c : Bytes} (hc : c.length < U64) {names : List Bytes}
    {out : Found} (h : Says c names out) {w : W} {fs : Ext4Fs D} (hG : G w) (ho : Opened Is c fs) :
    ∃ s' N, ∀ rounds, N ≤ rounds → follow dev rounds names 2 (w, fs) = (s', .ok out) := by
  cases h with
  | content m b hl hf =>
    obtain ⟨w1, fs1, N1, hG1, ho1, h1⟩ := follow_leads hv hc hl hG ho
    obtain ⟨s', N2, h2⟩ := follow_file hv hc hG1 ho1 hf
    refine ⟨s', N1 + N2, fun rounds hr => ?_⟩
    have := h1 rounds (by omega) []
    rw [List.append_nil] at this
    rw [this, h2 rounds (by omega)]
  | missing front rest name n records hn hl hd hcl hno =>
    subst hn
    obtain ⟨w1, fs1, N1, hG1, ho1, h1⟩ := follow_leads hv hc hl hG ho
    obtain ⟨w2, fs2, d, i, h2, ho2, hleft⟩ := directory_left hv hc hG1 ho1 hd
    have hrec := directory_record hd
    obtain ⟨⟨w3, d3⟩, N3, hG3, h3⟩ := lookUp_missing hv hc (name := name) (records.map DirEntry.mk) (w2, d)
      (fun x hx => by
        obtain ⟨y, hy, rfl⟩ := List.mem_map.1 hx
        rw [wanted_iff (hrec y hy) (hcl y hy)]
        exact hno y hy) (by rw [List.map_map]; exact hleft)
    refine ⟨(w3, fs2), N1 + N3 + records.length + 1, fun rounds hr => ?_⟩
    rw [h1 rounds (by omega), follow, SM.bind_ok (h := h2)]
    simp only
    rw [SM.bind_ok (h := onHandle_eq fs2 (h3 rounds (by omega) rounds (by rw [List.length_map]; omega)))]
    rfl
  | notADirectory front rest name n hn hl hr4 h4 h8 =>
    subst hn
    obtain ⟨w1, fs1, N1, hG1, ho1, h1⟩ := follow_leads hv hc hl hG ho
    obtain ⟨w2, fs2, r, h2, -, -, k8, -, -, -, k0⟩ := C75_outcome hv c hc w1 fs1 hG1 ho1 n hr4
    refine ⟨(w2, fs2), N1, fun rounds hr => ?_⟩
    rw [h1 rounds hr, follow]
    by_cases t8 : typeNumber c n = 8
    · obtain ⟨f, rfl⟩ := k8 t8 (h8 t8)
      rw [SM.bind_ok (h := h2)]
      rfl
    · have := k0 t8 h4
      subst this
      rw [SM.bind_ok (h := h2)]
      rfl
  | notAFile m hl hr8 h8 h4 =>
    obtain ⟨w1, fs1, N1, hG1, ho1, h1⟩ := follow_leads hv hc hl hG ho
    obtain ⟨w2, fs2, r, h2, -, -, -, -, k4, -, k0⟩ := C75_outcome hv c hc w1 fs1 hG1 ho1 m hr8
    refine ⟨(w2, fs2), N1, fun rounds hr => ?_⟩
    have := h1 rounds (by omega) []
    rw [List.append_nil] at this
    rw [this, follow]
    by_cases t4 : typeNumber c m = 4
    · obtain ⟨f, rfl⟩ := k4 t4 (h4 t4).2 (h4 t4).1
      rw [SM.bind_ok (h := h2)]
      rfl
    · have := k0 h8 t4
      subst this
      rw [SM.bind_ok (h := h2)]
      rfl

theorem readPath_eq {rounds : Nat} {d : D} {names : List Bytes} {w w' : W} {fs : Ext4Fs D}
    (h : Ext4Fs.open dev d w = (w', .ok fs)) :
    readPath dev rounds d names w =
      ((follow dev rounds names 2 (w', fs)).1.1, (follow dev rounds names 2 (w', fs)).2) := by
  rw [readPath, SM.bind_ok (h := h)]
  rfl

theorem open_opened (hv : VolumeSpec False dev G Is At) {c : Bytes} {w : W} {d : D} (hG : G w)
    (hI : Is d c) (hc : Ext4Openable c) (hl : c.length < 2 ^ 57) :
    ∃ w' fs, Ext4Fs.open dev d w = (w', .ok fs) ∧ G w' ∧ Opened Is c fs := by
  obtain ⟨w', fs, h1, hG', -⟩ := C57_opens hv c w d hG hI hc hl
  have hb : TableChecked c := .inr (by have := hc.fits; omega)
  obtain ⟨w1, r, h2, -, h3⟩ := Ext4Fs.open_spec hv hG hI hb
  rw [h1] at h2
  cases h2
  rcases h3 with ⟨fs, h3, ho, -⟩ | ⟨-, e, h3⟩ | ⟨-, h3⟩ <;> cases h3
  exact ⟨w', fs, h1, hG', ho⟩

/-! ## The bound on the loops does not matter -/

theorem readNextEntry_agree {r1 r2 : Nat} {s s1 s2 : W × Ext4Directory D}
    {a1 a2 : Res (Option (Option DirEntry))} (h1 : Ext4Directory.readNextEntry dev r1 s = (s1, a1))
    (h2 : Ext4Directory.readNextEntry dev r2 s = (s2, a2)) (n1 : a1 ≠ .ok none) (n2 : a2 ≠ .ok none) :
    s1 = s2 ∧ a1 = a2 := by
  obtain ⟨b1, rfl⟩ : ∃ b, a1 = some <$> b := by
    match a1, n1 with
    | .ok (some x), _ => exact ⟨.ok x, rfl⟩
    | .err e, _ => exact ⟨.err e, rfl⟩
    | .panic, _ => exact ⟨.panic, rfl⟩
  obtain ⟨b2, rfl⟩ : ∃ b, a2 = some <$> b := by
    match a2, n2 with
    | .ok (some x), _ => exact ⟨.ok x, rfl⟩
    | .err e, _ => exact ⟨.err e, rfl⟩
    | .panic, _ => exact ⟨.panic, rfl⟩
  obtain ⟨h3, h4⟩ := Ext4Directory.entryReturns_unique ⟨r1, h1⟩ ⟨r2, h2⟩
  exact ⟨h3, by rw [h4]⟩

theorem lookUp_agree {r1 r2 : Nat} {name : Bytes} (k1 : Nat) :
    ∀ (k2 : Nat) {s s1 s2 : W × Ext4Directory D} {a1 a2 : Res (Option (Option Nat))},
      lookUp dev r1 name k1 s = (s1, a1) → lookUp dev r2 name k2 s = (s2, a2) →
      a1 ≠ .ok none → a2 ≠ .ok none → s1 = s2 ∧ a1 = a2 := by
  induction k1 with
  | zero => intro k2 s s1 s2 a1 a2 h1 _ n1 _; cases h1; exact absurd rfl n1
  | succ k1 ih =>
    intro k2 s s1 s2 a1 a2 h1 h2 n1 n2
    cases k2 with
    | zero => cases h2; exact absurd rfl n2
    | succ k2 =>
      rcases e1 : Ext4Directory.readNextEntry dev r1 s with ⟨t1, b1⟩
      rcases e2 : Ext4Directory.readNextEntry dev r2 s with ⟨t2, b2⟩
      have m1 : b1 ≠ .ok none := by
        rintro rfl
        rw [lookUp, SM.bind_ok (h := e1)] at h1
        cases h1
        exact n1 rfl
      have m2 : b2 ≠ .ok none := by
        rintro rfl
        rw [lookUp, SM.bind_ok (h := e2)] at h2
        cases h2
        exact n2 rfl
      obtain ⟨rfl, rfl⟩ := readNextEntry_agree e1 e2 m1 m2
      match b1, m1 with
      | .err e, _ =>
        rw [lookUp, SM.bind_err (h := e1)] at h1
        rw [lookUp, SM.bind_err (h := e2)] at h2
        cases h1; cases h2
        exact ⟨rfl, rfl⟩
      | .panic, _ =>
        rw [lookUp, SM.bind_panic (h := e1)] at h1
        rw [lookUp, SM.bind_panic (h := e2)] at h2
        cases h1; cases h2
        exact ⟨rfl, rfl⟩
      | .ok (some none), _ =>
        rw [lookUp_entry e1] at h1
        rw [lookUp_entry e2] at h2
        cases h1; cases h2
        exact ⟨rfl, rfl⟩
      | .ok (some (some e)), _ =>
        rw [lookUp_entry e1] at h1
        rw [lookUp_entry e2] at h2
        by_cases hw : Wanted name e
        · simp only [if_pos hw] at h1 h2
          cases h1; cases h2
          exact ⟨rfl, rfl⟩
        · simp only [if_neg hw] at h1 h2
          exact ih k2 h1 h2 n1 n2

theorem readNextBlock_agree {r1 r2 : Nat} {buf : Bytes} {s s1 s2 : W × Ext4File D}
    {a1 a2 : Res (Option (Nat × Bytes))} (h1 : Ext4File.readNextBlock dev r1 buf s = (s1, a1))
    (h2 : Ext4File.readNextBlock dev r2 buf s = (s2, a2)) (n1 : a1 ≠ .ok none) (n2 : a2 ≠ .ok none) :
    s1 = s2 ∧ a1 = a2 := by
  have h1 := Ext4File.readNextBlock_more h1 n1 r2
  have h2 := Ext4File.readNextBlock_more h2 n2 r1
  rw [Nat.add_comm, h2] at h1
  cases h1
  exact ⟨rfl, rfl⟩

theorem readBlocks_agree {r1 r2 bs : Nat} (k1 : Nat) :
    ∀ (k2 : Nat) {s s1 s2 : W × Ext4File D} {a1 a2 : Res (Option Bytes)},
      readBlocks dev r1 bs k1 s = (s1, a1) → readBlocks dev r2 bs k2 s = (s2, a2) →
      a1 ≠ .ok none → a2 ≠ .ok none → s1 = s2 ∧ a1 = a2 := by
  induction k1 with
  | zero => intro k2 s s1 s2 a1 a2 h1 _ n1 _; cases h1; exact absurd rfl n1
  | succ k1 ih =>
    intro k2 s s1 s2 a1 a2 h1 h2 n1 n2
    cases k2 with
    | zero => cases h2; exact absurd rfl n2
    | succ k2 =>
      rcases e1 : Ext4File.readNextBlock dev r1 (zeros bs) s with ⟨t1, b1⟩
      rcases e2 : Ext4File.readNextBlock dev r2 (zeros bs) s with ⟨t2, b2⟩
      have m1 : b1 ≠ .ok none := by
        rintro rfl
        rw [readBlocks, SM.bind_ok (h := e1)] at h1
        cases h1
        exact n1 rfl
      have m2 : b2 ≠ .ok none := by
        rintro rfl
        rw [readBlocks, SM.bind_ok (h := e2)] at h2
        cases h2
        exact n2 rfl
      obtain ⟨rfl, rfl⟩ := readNextBlock_agree e1 e2 m1 m2
      match b1, m1 with
      | .err e, _ =>
        rw [readBlocks, SM.bind_err (h := e1)] at h1
        rw [readBlocks, SM.bind_err (h := e2)] at h2
        cases h1; cases h2
        exact ⟨rfl, rfl⟩
      | .panic, _ =>
        rw [readBlocks, SM.bind_panic (h := e1)] at h1
        rw [readBlocks, SM.bind_panic (h := e2)] at h2
        cases h1; cases h2
        exact ⟨rfl, rfl⟩
      | .ok (some (n, b)), _ =>
        rw [readBlocks, SM.bind_ok (h := e1)] at h1
        rw [readBlocks, SM.bind_ok (h := e2)] at h2
        by_cases hn : n = 0
        · simp only [if_pos hn] at h1 h2
          cases h1; cases h2
          exact ⟨rfl, rfl⟩
        · simp only [if_neg hn] at h1 h2
          rcases f1 : readBlocks dev r1 bs k1 t1 with ⟨u1, c1⟩
          rcases f2 : readBlocks dev r2 bs k2 t1 with ⟨u2, c2⟩
          have p1 : c1 ≠ .ok none := by
            rintro rfl
            rw [SM.bind_ok (h := f1)] at h1
            cases h1
            exact n1 rfl
          have p2 : c2 ≠ .ok none := by
            rintro rfl
            rw [SM.bind_ok (h := f2)] at h2
            cases h2
            exact n2 rfl
          obtain ⟨rfl, rfl⟩ := ih k2 f1 f2 p1 p2
          match c1 with
          | .ok x =>
            rw [SM.bind_ok (h := f1)] at h1
            rw [SM.bind_ok (h := f2)] at h2
            cases h1; cases h2
            exact ⟨rfl, rfl⟩
          | .err x =>
            rw [SM.bind_err (h := f1)] at h1
            rw [SM.bind_err (h := f2)] at h2
            cases h1; cases h2
            exact ⟨rfl, rfl⟩
          | .panic =>
            rw [SM.bind_panic (h := f1)] at h1
            rw [SM.bind_panic (h := f2)] at h2
            cases h1; cases h2
            exact ⟨rfl, rfl⟩

omit [Build] in
theorem onHandle_inv {X S α : Type} {x : X} {m : SM (W × X) α} {w : W} {s : S} {t : W × S} {r : Res α}
    (h : onHandle x m (w, s) = (t, r)) : ∃ w' x', m (w, x) = ((w', x'), r) ∧ t = (w', s) := by
  rcases e : m (w, x) with ⟨⟨w', x'⟩, r'⟩
  rw [onHandle_eq s e] at h
  cases h
  exact ⟨w', x', rfl, rfl⟩

theorem follow_agree {r1 r2 : Nat} (names : List Bytes) :
    ∀ (n : Nat) {s s1 s2 : W × Ext4Fs D} {a1 a2 : Res Found},
      follow dev r1 names n s = (s1, a1) → follow dev r2 names n s = (s2, a2) →
      a1 ≠ .ok .running → a2 ≠ .ok .running → s1 = s2 ∧ a1 = a2 := by
  induction names with
  | nil =>
    intro n s s1 s2 a1 a2 h1 h2 n1 n2
    rw [follow] at h1 h2
    rcases e : Ext4Fs.openFile dev n s with ⟨⟨w, fs⟩, o | o | _⟩
    · rw [SM.bind_ok (h := e)] at h1 h2
      match o with
      | .directory _ => cases h1; cases h2; exact ⟨rfl, rfl⟩
      | .unsupported _ => cases h1; cases h2; exact ⟨rfl, rfl⟩
      | .regularFile f =>
        simp only at h1 h2
        rcases hb : f.blockSize with bs | x | _
        · have hl : (SM.lift f.blockSize : SM (W × Ext4Fs D) Nat) (w, fs) = ((w, fs), .ok bs) := by
            rw [SM.lift_apply, hb]
          rw [SM.bind_ok (h := hl)] at h1 h2
          rcases f1 : onHandle (S := Ext4Fs D) f (readBlocks dev r1 bs r1) (w, fs) with ⟨t1, b1⟩
          rcases f2 : onHandle (S := Ext4Fs D) f (readBlocks dev r2 bs r2) (w, fs) with ⟨t2, b2⟩
          obtain ⟨w1, g1, k1, rfl⟩ := onHandle_inv f1
          obtain ⟨w2, g2, k2, rfl⟩ := onHandle_inv f2
          have p1 : b1 ≠ .ok none := by
            rintro rfl
            rw [SM.bind_ok (h := f1)] at h1
            cases h1
            exact n1 rfl
          have p2 : b2 ≠ .ok none := by
            rintro rfl
            rw [SM.bind_ok (h := f2)] at h2
            cases h2
            exact n2 rfl
          obtain ⟨h3, rfl⟩ := readBlocks_agree _ _ k1 k2 p1 p2
          cases h3
          match b1 with
          | .ok x =>
            rw [SM.bind_ok (h := f1)] at h1
            rw [SM.bind_ok (h := f2)] at h2
            cases h1; cases h2
            exact ⟨rfl, rfl⟩
          | .err x =>
            rw [SM.bind_err (h := f1)] at h1
            rw [SM.bind_err (h := f2)] at h2
            cases h1; cases h2
            exact ⟨rfl, rfl⟩
          | .panic =>
            rw [SM.bind_panic (h := f1)] at h1
            rw [SM.bind_panic (h := f2)] at h2
            cases h1; cases h2
            exact ⟨rfl, rfl⟩
        · have hl : (SM.lift f.blockSize : SM (W × Ext4Fs D) Nat) (w, fs) = ((w, fs), .err x) := by
            rw [SM.lift_apply, hb]
          rw [SM.bind_err (h := hl)] at h1 h2
          cases h1; cases h2
          exact ⟨rfl, rfl⟩
        · have hl : (SM.lift f.blockSize : SM (W × Ext4Fs D) Nat) (w, fs) = ((w, fs), .panic) := by
            rw [SM.lift_apply, hb]
          rw [SM.bind_panic (h := hl)] at h1 h2
          cases h1; cases h2
          exact ⟨rfl, rfl⟩
    · rw [SM.bind_err (h := e)] at h1 h2
      cases h1; cases h2
      exact ⟨rfl, rfl⟩
    · rw [SM.bind_panic (h := e)] at h1 h2
      cases h1; cases h2
      exact ⟨rfl, rfl⟩
  | cons name names ih =>
    intro n s s1 s2 a1 a2 h1 h2 n1 n2
    rw [follow] at h1 h2
    rcases e : Ext4Fs.openFile dev n s with ⟨⟨w, fs⟩, o | o | _⟩
    · rw [SM.bind_ok (h := e)] at h1 h2
      match o with
      | .regularFile _ => cases h1; cases h2; exact ⟨rfl, rfl⟩
      | .unsupported _ => cases h1; cases h2; exact ⟨rfl, rfl⟩
      | .directory d =>
        simp only at h1 h2
        rcases f1 : onHandle (S := Ext4Fs D) d (lookUp dev r1 name r1) (w, fs) with ⟨t1, b1⟩
        rcases f2 : onHandle (S := Ext4Fs D) d (lookUp dev r2 name r2) (w, fs) with ⟨t2, b2⟩
        obtain ⟨w1, g1, k1, rfl⟩ := onHandle_inv f1
        obtain ⟨w2, g2, k2, rfl⟩ := onHandle_inv f2
        have p1 : b1 ≠ .ok none := by
          rintro rfl
          rw [SM.bind_ok (h := f1)] at h1
          cases h1
          exact n1 rfl
        have p2 : b2 ≠ .ok none := by
          rintro rfl
          rw [SM.bind_ok (h := f2)] at h2
          cases h2
          exact n2 rfl
        obtain ⟨h3, rfl⟩ := lookUp_agree _ _ k1 k2 p1 p2
        cases h3
        match b1, p1 with
        | .ok (some none), _ =>
          rw [SM.bind_ok (h := f1)] at h1
          rw [SM.bind_ok (h := f2)] at h2
          cases h1; cases h2
          exact ⟨rfl, rfl⟩
        | .ok (some (some m)), _ =>
          rw [SM.bind_ok (h := f1)] at h1
          rw [SM.bind_ok (h := f2)] at h2
          exact ih m h1 h2 n1 n2
        | .err x, _ =>
          rw [SM.bind_err (h := f1)] at h1
          rw [SM.bind_err (h := f2)] at h2
          cases h1; cases h2
          exact ⟨rfl, rfl⟩
        | .panic, _ =>
          rw [SM.bind_panic (h := f1)] at h1
          rw [SM.bind_panic (h := f2)] at h2
          cases h1; cases h2
          exact ⟨rfl, rfl⟩
    · rw [SM.bind_err (h := e)] at h1 h2
      cases h1; cases h2
      exact ⟨rfl, rfl⟩
    · rw [SM.bind_panic (h := e)] at h1 h2
      cases h1; cases h2
      exact ⟨rfl, rfl⟩

theorem readPath_agree {r1 r2 : Nat} {d : D} {names : List Bytes} {w : W}
    (n1 : (readPath dev r1 d names w).2 ≠ .ok .running) (n2 : (readPath dev r2 d names w).2 ≠ .ok .running) :
    readPath dev r1 d names w = readPath dev r2 d names w := by
  rcases e : Ext4Fs.open dev d w with ⟨w', fs | x | _⟩
  · rw [readPath_eq e] at n1 n2 ⊢
    rw [readPath_eq e]
    rcases h1 : follow dev r1 names 2 (w', fs) with ⟨s1, a1⟩
    rcases h2 : follow dev r2 names 2 (w', fs) with ⟨s2, a2⟩
    rw [h1] at n1
    rw [h2] at n2
    obtain ⟨rfl, rfl⟩ := follow_agree names 2 h1 h2 n1 n2
    rfl
  · rw [readPath, SM.bind_err (h := e), readPath, SM.bind_err (h := e)]
  · rw [readPath, SM.bind_panic (h := e), readPath, SM.bind_panic (h := e)]

end
end MdRecover
