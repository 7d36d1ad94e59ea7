import Verif.Lemmas.Sweep
import Verif.Lemmas.Rescue
import Verif.Props.ListRetry
import Verif.Props.Written
import Verif.Spec.SweepFailing

namespace MdRecover
open MdSpec Mkfs

namespace MkfsLemmas
variable {k : Form} {t : List Node} {a c tail : Bytes}

section
variable (ha : a = volume k t ++ tail) (hf : Fits k t) (hd : DirectoriesDamaged k t a c)
include ha hf hd

theorem inodeBytes_same {n : Nat} (hn : 1 ≤ n) (hn' : n ≤ inodes k t) : inodeBytes c n = inodeBytes a n := by
  have hs := sb_same hd
  have hv := values_volume ha hf
  have hgrp : (n - 1) / inodes k t = 0 := Nat.div_eq_of_lt (by omega)
  have hsl : inodeSlot c n = inodeSlot a n := by
    unfold inodeSlot
    rw [hs, hv.inodesPerGroup, table_same ha hf hd _ hgrp]
  have hslot : inodeSlot a n = (firstData k + 2) * bs k + (n - 1) * 128 := by
    unfold inodeSlot
    rw [hv.inodesPerGroup, hv.inodeSize, blockSize_volume ha hf, hgrp, Nat.mod_eq_of_lt (by omega),
      inodeTable_volume ha hf]
  have htb : tableBlocks k t * bs k = inodes k t * 128 := by
    rw [bs_eq]
    unfold inodes
    rw [Nat.mul_assoc, Nat.mul_assoc, Nat.mul_assoc]
  unfold inodeBytes
  rw [hs, hsl]
  refine head_same hd ?_
  rw [hslot, hv.inodeSize, Nat.add_mul (firstData k + 2), htb]
  omega

/-- The damaged volume holds what it declares. -/
theorem holds_damaged : HoldsWhatItDeclares c := by
  obtain ⟨h, -⟩ := holds_volume ha hf
  have hs := sb_same hd
  have hv := values_volume ha hf
  have hbytes : ∀ n, InodeSlot c n → inodeBytes c n = inodeBytes a n := fun n hn =>
    inodeBytes_same ha hf hd hn.pos (by rw [← hv.inodes, ← hs]; exact hn.le)
  have hslot : ∀ n, InodeSlot c n → InodeSlot a n := by
    intro n hn
    have hle : n ≤ inodes k t := by rw [← hv.inodes, ← hs]; exact hn.le
    have hpos := hn.pos
    have hsl : inodeSlot c n = inodeSlot a n := by
      unfold inodeSlot
      rw [hs, hv.inodesPerGroup, table_same ha hf hd _ (Nat.div_eq_of_lt (by omega))]
    exact ⟨by rw [← hd.length]; exact hn.long, by rw [← hs]; exact hn.readable, hn.pos, by rw [← hs]; exact hn.le,
      by rw [← hs]; exact hn.group, by rw [← hs, ← hsl, ← hd.length]; exact hn.inside⟩
  have htree : ∀ n, InodeSlot c n → HasTree c n → HasTree a n := by
    intro n hn ht
    unfold HasTree hasExtents flagBit typeNumber at ht ⊢
    rw [← hbytes n hn]
    exact ht
  refine ⟨?_, ?_, ?_, ?_⟩
  · intro ho
    refine h.opening ?_
    unfold OpenMayPanic at ho ⊢
    rw [← hs, ← hd.length]
    exact ho
  · intro n hn
    have := h.inodes n (hslot n hn)
    unfold InodeFits at this ⊢
    rw [hbytes n hn]
    exact this
  · intro n hn ht node hnode
    rcases inode_cases ha hf n hn.pos (by rw [← hv.inodes, ← hs]; exact hn.le) with ⟨i, nd, rfl, hi⟩ | h0
    · have hr := (inode_damaged ha hf hd hi).2.2.2.2.2
      obtain ⟨-, h2, h3, -⟩ := root_values (start k t i) (blocks k nd) (hf.sizes nd (List.mem_of_getElem? hi))
      rw [hr] at hnode
      have : node = extentRoot (start k t i) (blocks k nd) := by
        induction hnode with
        | root => rfl
        | child node j _ hd _ _ _ ih =>
          rw [ih] at hd
          exact absurd h2 hd
      rw [this]
      exact h3
    · obtain ⟨ht, -⟩ := ht
      have he : extraOf (zeros 128) = 0 := by
        unfold extraOf
        rw [zeros_len, if_neg (by decide)]
      have hp : inodePart (zeros 128) = zeros 128 := by
        unfold inodePart
        rw [he, List.take_of_length_le (by rw [zeros_len])]
      unfold typeNumber at ht
      rw [hbytes n hn, h0, hp, le_zeros] at ht
      simp at ht
  · intro n hn ht
    have := h.sizes n (hslot n hn) (htree n hn ht)
    unfold MdSpec.sizeOf at this ⊢
    rw [hs, hbytes n hn]
    exact this

omit ha hf hd in
/-- Content that was found is the content. -/
theorem found_eq {n : Nat} {b b' : Bytes} (h : FileAt c n b) (h' : FileFound c n b') : b' = b := by
  obtain ⟨ys, y1, -, -, y2, y3, y4⟩ := h.blocks
  obtain ⟨-, -, -, xs, x1, x2, x3, x4⟩ := h'
  have hpos : 0 < blockSizeOf (sbOf c) := Nat.mul_pos (by omega) (Nat.two_pow_pos _)
  have hget : ∀ j x : Nat, xs[j]? = some x → ys[j]? = some x := by
    intro j x hj
    have := (contiguous_map y1 (x1 j x hj).1).2
    rwa [Nat.sub_zero] at this
  have hle : xs.length ≤ ys.length := by
    by_contra hlt
    have := hget ys.length xs[ys.length] (List.getElem?_eq_getElem (by omega))
    rw [List.getElem?_eq_none (Nat.le_refl _)] at this
    cases this
  have hge : ys.length ≤ xs.length := by
    by_contra hlt
    have hne : ys ≠ [] := by rintro rfl; simp at hlt
    have h3 := y3 hne
    have : (xs.length + 1) * blockSizeOf (sbOf c) ≤ ys.length * blockSizeOf (sbOf c) :=
      Nat.mul_le_mul_right _ (by omega)
    rw [Nat.add_mul, Nat.one_mul] at this
    omega
  have : xs = ys := by
    refine List.ext_getElem (by omega) fun j h1 h2 => ?_
    have := hget j xs[j] (List.getElem?_eq_getElem h1)
    rw [List.getElem?_eq_getElem h2] at this
    exact (Option.some.inj this).symm
  rw [x4, y4, this]

end
end MkfsLemmas

section
variable [Build] {W D : Type} {F : Prop} {dev : StreamDev W D} {G : W → Prop} {Is : D → Bytes → Prop}
  {At : W → D → Nat → Prop}

/-- The reads that returned data. -/
def dataReturned (g : List (Bytes × Res (Nat × Bytes))) : List (Nat × Bytes) :=
  g.filterMap fun y => match y.2 with
    | .ok (n, b) => if n = 0 then none else some (n, b)
    | _ => none

/-- Whichever reads failed, those that returned data returned the blocks in their order. -/
theorem reads_data (hv : VolumeSpec F dev G Is At) {c : Bytes} (hc : c.length < U64) {w : W} (hG : G w)
    {fs : Ext4Fs D} (ho : Opened Is c fs) {inode : Inode} {f : Ext4File D} (hf : Ext4File.open fs inode = .ok f)
    {xs : List Nat} (hx : Contiguous c (blockSizeOf (sbOf c)) inode.blocksBuffer 0 0 xs)
    (hsize : inode.fileSizeBytes = xs.length * blockSizeOf (sbOf c)) (h32 : xs.length < U32)
    {g : List (Bytes × Res (Nat × Bytes))} {s : W × Ext4File D} (hcalls : Calls dev (w, f) g s)
    (hbuf : ∀ y ∈ g, y.1 = zeros (blockSizeOf (sbOf c))) :
    dataReturned g =
      (xs.take (dataCalls g)).map fun x => (blockSizeOf (sbOf c), blockOf c (blockSizeOf (sbOf c)) x) := by
  have hw : BlocksCounted c inode.fileSizeBytes :=
    .inr (by rw [hsize]; exact Nat.mul_le_mul_right _ (by omega))
  have hz : (zeros (blockSizeOf (sbOf c))).length = blockSizeOf (sbOf c) := List.length_replicate
  generalize hs0 : (w, f) = s0 at hcalls
  induction hcalls with
  | nil => rfl
  | snoc s s' h buf r hcalls hret hr ih =>
    subst hs0
    have ih := ih (fun y hy => hbuf y (List.mem_append_left _ hy))
    have hlast : (buf, r) ∈ h ++ [(buf, r)] := List.mem_append_right _ List.mem_cons_self
    have hb : buf = zeros (blockSizeOf (sbOf c)) := hbuf _ hlast
    have hD : dataReturned (h ++ [(buf, r)]) = dataReturned h ++ dataReturned [(buf, r)] := List.filterMap_append
    have hC : dataCalls (h ++ [(buf, r)]) = dataCalls h + dataCalls [(buf, r)] := List.countP_append
    have hzero : gotData r = false → dataReturned (h ++ [(buf, r)]) = (xs.take (dataCalls (h ++ [(buf, r)]))).map
        fun x => (blockSizeOf (sbOf c), blockOf c (blockSizeOf (sbOf c)) x) := by
      intro hg
      have h1 : dataCalls [(buf, r)] = 0 := by
        unfold dataCalls
        simp [hg]
      have h2 : dataReturned [(buf, r)] = [] := by
        unfold dataReturned
        rcases r with ⟨n, b⟩ | e | _
        · have : n = 0 := by simpa [gotData] using hg
          simp [this]
        · rfl
        · rfl
      rw [hD, hC, h1, h2, List.append_nil, Nat.add_zero]
      exact ih
    rcases r with ⟨n, out⟩ | e | _
    · by_cases hn : n = 0
      · exact hzero (by simp [gotData, hn])
      subst hb
      obtain ⟨x, h1, h2, h3, h4⟩ := C64_right_block hv c hc w hG fs ho inode f hf hw h s s' hcalls _ out n hret hn
      obtain ⟨-, h5⟩ := contiguous_map hx h1
      rw [Nat.sub_zero] at h5
      have hlt : dataCalls h < xs.length := (List.getElem?_eq_some_iff.1 h5).1
      have hC1 : dataCalls [(zeros (blockSizeOf (sbOf c)), Res.ok (n, out))] = 1 := by
        unfold dataCalls gotData
        simp [hn]
      have hD1 : dataReturned [(zeros (blockSizeOf (sbOf c)), Res.ok (n, out))] = [(n, out)] := by
        unfold dataReturned
        simp [hn]
      have hmul : (dataCalls h + 1) * blockSizeOf (sbOf c) ≤ xs.length * blockSizeOf (sbOf c) :=
        Nat.mul_le_mul_right _ hlt
      have hn' : n = blockSizeOf (sbOf c) := by
        rw [h4, hsize]
        rw [Nat.add_mul, Nat.one_mul] at hmul
        omega
      have hout : out = blockOf c (blockSizeOf (sbOf c)) x := by
        rw [h3, hz]
        rfl
      rw [hD, hC, hC1, hD1, ih, List.take_add_one, h5, List.map_append]
      simp only [List.map_cons, List.map_nil, Option.toList_some]
      rw [hn', hout]
    · exact hzero rfl
    · exact hzero rfl

omit [Build] in
theorem entriesAmong_append (l l' : List (Res (Option DirEntry))) :
    entriesAmong (l ++ l') = entriesAmong l ++ entriesAmong l' := List.filterMap_append

omit [Build] in
/-- The entries that reads give are those of the blocks they returned. -/
theorem results_data {seed : Option Nat} {c : Bytes} {bs : Nat}
    {g : List (Bytes × Res (Nat × Bytes))} {rss' : List (List (Res (Option DirEntry)))}
    (h : List.Forall₂ (fun (y : Bytes × Res (Nat × Bytes)) rs => ReadResults seed bs y.2 rs) g rss') :
    ∀ (zs : List Nat) (rss : List (List (Res (Option DirEntry)))),
      List.Forall₂ (fun x rs => BlockResults seed (blockOf c bs x) rs) zs rss →
      dataReturned g = zs.map (fun x => (bs, blockOf c bs x)) →
      entriesAmong rss'.flatten = entriesAmong rss.flatten := by
  induction h with
  | nil =>
    intro zs rss h1 h2
    have : zs = [] := List.map_eq_nil_iff.1 h2.symm
    subst this
    cases h1
    rfl
  | cons hy hg ih =>
    rename_i y rs g rss'
    intro zs rss h1 h2
    obtain ⟨buf, r⟩ := y
    rw [List.flatten_cons, entriesAmong_append]
    rcases r with ⟨n, b⟩ | e | _
    · rcases hy with ⟨h0, rfl⟩ | ⟨h0, hn, hb⟩ | ⟨h0, hn, hb⟩
      · exact ih zs rss h1 (by rw [← h2]; simp [dataReturned, h0])
      · have hcons : dataReturned ((buf, Res.ok (n, b)) :: g) = (n, b) :: dataReturned g := by simp [dataReturned, h0]
        rw [hcons] at h2
        cases h1 with
        | nil => cases h2
        | cons hz hzs =>
          obtain ⟨h3, h4⟩ := List.cons.inj h2
          obtain ⟨-, rfl⟩ := Prod.mk.inj h3
          rw [blockResults_unique hb hz, ih _ _ hzs h4, List.flatten_cons, entriesAmong_append]
      · have hcons : dataReturned ((buf, Res.ok (n, b)) :: g) = (n, b) :: dataReturned g := by simp [dataReturned, h0]
        rw [hcons] at h2
        cases h1 with
        | nil => cases h2
        | cons hz hzs => exact absurd (Prod.mk.inj (List.cons.inj h2).1).1 hn
    · have hy : rs = [.err e] := hy
      rw [hy]
      exact ih zs rss h1 (by rw [← h2]; rfl)
    · exact hy.elim

/-- Whichever calls failed, the entries that calls returned are the first ones of the directory. -/
theorem calls_entries (hv : VolumeSpec F dev G Is At) {c : Bytes} (hc : c.length < U64) {w : W} (hG : G w)
    {fs : Ext4Fs D} (ho : Opened Is c fs) {inode : Inode} {d : Ext4Directory D}
    (hd : Ext4Directory.open fs inode = .ok d) {xs : List Nat}
    (hx : Contiguous c (blockSizeOf (sbOf c)) inode.blocksBuffer 0 0 xs)
    (hsize : inode.fileSizeBytes = xs.length * blockSizeOf (sbOf c)) (h32 : xs.length < U32)
    {rss : List (List (Res (Option DirEntry)))}
    (hrss : List.Forall₂ (fun x rs => BlockResults inode.metadataChecksumSeed
      (blockOf c (blockSizeOf (sbOf c)) x) rs) xs rss)
    {h : List (Res (Option DirEntry))} {s : W × Ext4Directory D} (hcalls : DirCalls dev (w, d) h s) :
    entriesAmong h <+: entriesAmong rss.flatten := by
  have hw : BlocksCounted c inode.fileSizeBytes :=
    .inr (by rw [hsize]; exact Nat.mul_le_mul_right _ (by omega))
  obtain ⟨f, hf⟩ : ∃ f, Ext4File.open fs inode = .ok f := by
    unfold Ext4Directory.open at hd
    split at hd
    · cases hd
    · rcases hf : Ext4File.open fs inode with f | e | _
      · exact ⟨f, rfl⟩
      · rw [hf] at hd; cases hd
      · rw [hf] at hd; cases hd
  obtain ⟨g, rss', s', hg, hbuf, hres, hcase⟩ :=
    C72_follows hv c hc w hG fs ho inode d hd hw f hf h s hcalls
  have h1 := reads_data hv hc hG ho hf hx hsize h32 hg hbuf
  have h2 := results_data hres _ _ (List.forall₂_take (dataCalls g) hrss) h1
  have h3 : entriesAmong (rss.take (dataCalls g)).flatten <+: entriesAmong rss.flatten := by
    refine List.IsPrefix.filterMap _ ?_
    obtain ⟨u, hu⟩ := List.take_prefix (dataCalls g) rss
    exact ⟨u.flatten, by rw [← List.flatten_append, hu]⟩
  rw [← h2] at h3
  rcases hcase with ⟨-, hpre⟩ | ⟨g', x, j, -, -, -, rfl⟩
  · exact (List.IsPrefix.filterMap _ hpre).trans h3
  · rw [entriesAmong_append]
    have : entriesAmong (List.replicate j (.ok none)) = [] := by
      unfold entriesAmong
      rw [List.filterMap_eq_nil_iff]
      intro r hr
      rw [List.eq_of_mem_replicate hr]
    rw [this, List.append_nil]
    exact h3

theorem listPast_safe (hv : VolumeSpec F dev G Is At) {c : Bytes} (hc : c.length < U64) {i : Inode}
    (hsize : i.fileSizeBytes ≤ (U32 - 1) * blockSizeOf (sbOf c)) (rounds : Nat) :
    ∀ (k : Nat) {s : W × Ext4Directory D}, Ext4Directory.Inv Is G c (AllFit c) i s →
      ∃ s' l e, listPast dev rounds k s = (s', .ok (l, e)) ∧ Ext4Directory.Inv Is G c (AllFit c) i s' ∧
        ∀ {s0 : W × Ext4Directory D} {h : List (Res (Option DirEntry))}, DirCalls dev s0 h s →
          ∃ rs s2, DirCalls dev s0 (h ++ rs) s2 ∧ entriesAmong rs = l := by
  intro k
  induction k with
  | zero =>
    exact fun {s} hi => ⟨s, [], 0, rfl, hi, fun {s0 h} hcalls =>
      ⟨[], s, by rw [List.append_nil]; exact hcalls, rfl⟩⟩
  | succ k ih =>
    intro s hi
    obtain ⟨h1, h2⟩ := Ext4Directory.readNextEntry_safe hv hc hsize rounds hi
    rcases h3 : Ext4Directory.readNextEntry dev rounds s with ⟨s1, r⟩
    rw [h3] at h1 h2
    match r with
    | .panic => exact absurd rfl h2
    | .err x =>
      obtain ⟨s2, l, e, g1, g2, g3⟩ := ih h1
      refine ⟨s2, l, e + 1, ?_, g2, fun {s0 h} hcalls => ?_⟩
      · rw [listPast, SM.bind_ok (h := caught_err h3)]
        simp only
        rw [SM.bind_ok (h := g1)]
        rfl
      · have hcalls1 := DirCalls.snoc _ _ _ _ (.err x) hcalls ⟨rounds, h3⟩ (fun h => (by cases h))
        obtain ⟨rs, s3, j1, j2⟩ := g3 hcalls1
        exact ⟨.err x :: rs, s3, by simpa using j1, j2⟩
    | .ok none =>
      refine ⟨s1, [], 0, ?_, h1, fun {s0 h} hcalls => ⟨[], s, by rw [List.append_nil]; exact hcalls, rfl⟩⟩
      rw [listPast, SM.bind_ok (h := caught_ok h3)]
      rfl
    | .ok (some none) =>
      refine ⟨s1, [], 0, ?_, h1, fun {s0 h} hcalls => ⟨[], s, by rw [List.append_nil]; exact hcalls, rfl⟩⟩
      rw [listPast, SM.bind_ok (h := caught_ok h3)]
      rfl
    | .ok (some (some x)) =>
      obtain ⟨s2, l, e, g1, g2, g3⟩ := ih h1
      refine ⟨s2, x :: l, e, ?_, g2, fun {s0 h} hcalls => ?_⟩
      · rw [listPast, SM.bind_ok (h := caught_ok h3)]
        simp only
        rw [SM.bind_ok (h := g1)]
        rfl
      · have hcalls1 := DirCalls.snoc _ _ _ _ (.ok (some x)) hcalls ⟨rounds, h3⟩ (fun h => (by cases h))
        obtain ⟨rs, s3, j1, j2⟩ := g3 hcalls1
        exact ⟨.ok (some x) :: rs, s3, by simpa using j1, by rw [← j2]; rfl⟩

omit [Build] in
theorem saveAll_only {S α : Type} {I : S → Prop} {go : Nat → SM S α} {P : Nat → α → Prop} {ok : Nat → Prop}
    (hgo : ∀ n, ok n → ∀ s, I s → ∃ s' y, go n s = (s', .ok y) ∧ I s' ∧ P n y) :
    ∀ (es : List (Bytes × Nat)), (∀ e ∈ es, ok e.2) → ∀ s : S, I s →
      ∃ s' ys, saveAll go es s = (s', .ok ys) ∧ I s' ∧ List.Forall₂ (fun e y => e.1 = y.1 ∧ P e.2 y.2) es ys := by
  intro es
  induction es with
  | nil => exact fun _ s hs => ⟨s, [], rfl, hs, .nil⟩
  | cons e es ih =>
    intro hok s hs
    obtain ⟨s1, y, h1, hs1, hp⟩ := hgo e.2 (hok e List.mem_cons_self) s hs
    obtain ⟨s2, ys, h2, hs2, h3⟩ := ih (fun x hx => hok x (List.mem_cons_of_mem _ hx)) s1 hs1
    refine ⟨s2, (e.1, y) :: ys, ?_, hs2, .cons ⟨rfl, hp⟩ h3⟩
    rw [saveAll, SM.bind_ok (h := h1), SM.bind_ok (h := h2)]
    rfl

namespace MkfsLemmas
variable {k : Form} {t : List Node} {a c tail : Bytes}

/-- The program on the damaged volume, on a device that may fail. -/
theorem sweep_within (ha : a = volume k t ++ tail) (hf : Fits k t) (hd : DirectoriesDamaged k t a c)
    (hv : VolumeSpec F dev G Is At) (hc : c.length < U64) (hu : k.uuid.isSome) (rounds : Nat) :
    ∀ depth n, n < t.length → ∀ s : W × Ext4Fs D, (G s.1 ∧ Opened Is c s.2) →
      ∃ s' y, sweep dev rounds depth (n + 2) s = (s', .ok y) ∧ (G s'.1 ∧ Opened Is c s'.2) ∧
        SweptWithin t (damagedBlock k t a c) depth n y := by
  have hs := holds_damaged ha hf hd
  have hbz := blockSize_damaged ha hf hd
  intro depth
  induction depth with
  | zero => exact fun n _ s h => ⟨s, .lost, rfl, h, trivial⟩
  | succ depth ih =>
    rintro n hn ⟨w, fs⟩ ⟨hG, ho⟩
    have hi : t[n]? = some t[n] := List.getElem?_eq_getElem hn
    generalize t[n] = nd at hi
    obtain ⟨-, r2, -, -, r5, -⟩ := inode_damaged ha hf hd hi
    obtain ⟨w1, fs1, r, h1, hG1, ho1, h2, h3⟩ := Ext4Fs.openFile_safe hv hs hG ho (n + 2)
    have hcount : InodeReadable c (n + 2) → HasTree c (n + 2) → BlocksCounted c (MdSpec.sizeOf c (n + 2)) :=
      fun hr ht => .inr (hs.sizes (n + 2) ⟨ho.long, ho.readable, hr.pos, hr.le, hr.group, .inr hr.inside⟩ ht)
    match r with
    | .panic => exact absurd rfl h2
    | .err e =>
      refine ⟨(w1, fs1), .lost, ?_, ⟨hG1, ho1⟩, trivial⟩
      rw [sweep, SM.bind_ok (h := caught_err h1)]
      rfl
    | .ok (.unsupported ft) =>
      obtain ⟨-, -, -, -, -, i, fs2, -, -, t1, t2, -⟩ := C75_success hv c w w1 fs fs1 hG ho (n + 2) _ h1
      rcases nd with b | es
      · exact absurd (r2.trans (mode_file b)) t1
      · exact absurd (r2.trans (mode_dir es)) t2
    | .ok (.regularFile f) =>
      have hread := openFile_readable hv hG ho h1
      obtain ⟨-, -, -, -, -, i', fs2, -, -, t1, t2, -⟩ := C75_success hv c w w1 fs fs1 hG ho (n + 2) _ h1
      rcases nd with b | es
      swap
      · rw [r2, mode_dir es] at t1
        omega
      obtain ⟨i, hsize, hinv⟩ := h3 _ rfl (.file f) (by simp [ofOpened])
      have hi' := hinv w1 hG1
      have hbs := Ext4File.blockSize_eq hi'.opened
      obtain ⟨g1, g2⟩ := readBlocks_safe hv hc hsize rounds (blockSizeOf (sbOf c)) rounds hi'
      rcases h4 : readBlocks dev rounds (blockSizeOf (sbOf c)) rounds (w1, f) with ⟨⟨w2, f2⟩, r⟩
      rw [h4] at g1 g2
      have h6 : (SM.lift f.blockSize : SM (W × Ext4Fs D) Nat) (w1, fs1)
          = ((w1, fs1), .ok (blockSizeOf (sbOf c))) := by
        rw [SM.lift_apply, hbs]
      have h7 : ∀ x, caught (onHandle f (readBlocks dev rounds (blockSizeOf (sbOf c)) rounds)) (w1, fs1) =
            ((w2, fs1), .ok x) →
          sweep dev rounds (depth + 1) (n + 2) (w, fs) = ((w2, fs1), .ok (match x with
            | some (some b) => .file b
            | _ => .lost)) := by
        intro x hx
        rw [sweep, SM.bind_ok (h := caught_ok h1)]
        simp only
        rw [SM.bind_ok (h := h6), SM.bind_ok (h := hx)]
        rcases x with _ | _ | b <;> rfl
      match r with
      | .panic => exact absurd rfl g2
      | .err e => exact ⟨_, _, h7 _ (caught_err (onHandle_eq fs1 h4)), ⟨g1.good, ho1⟩, trivial⟩
      | .ok none => exact ⟨_, _, h7 _ (caught_ok (onHandle_eq fs1 h4)), ⟨g1.good, ho1⟩, trivial⟩
      | .ok (some b') =>
        refine ⟨_, _, h7 _ (caught_ok (onHandle_eq fs1 h4)), ⟨g1.good, ho1⟩, ?_⟩
        have hfound := (readBlocks_backed hv hc (hcount hread ⟨.inl t1, t2⟩) hG ho h1 h4).2.2
        have := found_eq (file_damaged ha hf hd hi) hfound
        rw [this]
        exact hi
    | .ok (.directory d) =>
      obtain ⟨-, -, -, -, -, i', fs2, hi2, ho2, t1, t2, t3, hopen⟩ :=
        C75_success hv c w w1 fs fs1 hG ho (n + 2) _ h1
      rcases nd with b | es
      · rw [r2, mode_file b] at t1
        omega
      obtain ⟨i, hsize, hinv⟩ := h3 _ rfl (.dir d) (by simp [ofOpened])
      have hi' := hinv w1 hG1
      obtain ⟨⟨w2, d2⟩, l, e, g1, g2, g3⟩ := listPast_safe hv hc hsize rounds rounds hi'
      obtain ⟨rs, s2, j1, rfl⟩ := g3 (.nil (w1, d))
      rw [List.nil_append] at j1
      obtain ⟨-, -, k1, -, -, -, -, -, k2, -⟩ := C60_fields _ _ _ i' hi2
      have k1 : i'.fileSizeBytes = MdSpec.sizeOf c (n + 2) := k1
      have k2 : i'.blocksBuffer = rootNode c (n + 2) := k2
      have k3 := inodeSeed_eq ho.superblock hi2 (seed_damaged ha hf hd hi)
      obtain ⟨hx, hin⟩ := blocks_damaged ha hf hd hi
      have hres := results_damaged ha hf hd hu hi
      obtain ⟨hlen, hbl⟩ := length_dir hf n es hi
      have hb := hf.sizes _ (List.mem_of_getElem? hi)
      have hsz : i'.fileSizeBytes =
          ((List.range (blocks k (.dir es))).map (start k t n + ·)).length * blockSizeOf (sbOf c) := by
        rw [List.length_map, List.length_range, hbz, k1, r5, hbl, hlen]
      have hpre := calls_entries hv hc hG1 ho2 hopen (by rw [hbz, k2]; exact hx) hsz
        (by rw [List.length_map, List.length_range]; show _ < 2 ^ 32; omega) (by rw [hbz, k3]; exact hres) j1
      have hflat : (es.zipIdx.map fun e => [result k (damagedBlock k t a c n e.2) e.1]).flatten =
          es.zipIdx.map fun e => result k (damagedBlock k t a c n e.2) e.1 := by
        generalize es.zipIdx = l
        induction l with
        | nil => rfl
        | cons e l ih => rw [List.map_cons, List.map_cons, List.flatten_cons, ih]; rfl
      rw [hflat] at hpre
      obtain ⟨e1, -⟩ := entries_results hf (List.mem_of_getElem? hi) (damagedBlock k t a c n) es.zipIdx
        fun e he => List.fst_mem_of_mem_zipIdx he
      have hkept : kept (entriesAmong rs) <+:
          (es.zipIdx.filter fun e => !damagedBlock k t a c n e.2 && !isDots e.1.1).map fun e => (e.1.1, e.1.2 + 2) := by
        rw [← e1]
        exact (hpre.filter _).map _
      obtain ⟨q, hq, hqe⟩ : ∃ q, q <+: (es.zipIdx.filter fun e => !damagedBlock k t a c n e.2 && !isDots e.1.1) ∧
          kept (entriesAmong rs) = q.map fun e => (e.1.1, e.1.2 + 2) := by
        refine ⟨_, List.take_prefix (kept (entriesAmong rs)).length _, ?_⟩
        rw [List.map_take]
        exact List.prefix_iff_eq_take.1 hkept
      obtain ⟨s3, ys, h5, hs3, h6⟩ := saveAll_only (I := fun s => G s.1 ∧ Opened Is c s.2)
        (go := sweep dev rounds depth) (ok := fun m => 2 ≤ m ∧ m - 2 < t.length)
        (P := fun m y => SweptWithin t (damagedBlock k t a c) depth (m - 2) y) (fun m hm s hs => by
          obtain ⟨m, rfl⟩ := Nat.exists_eq_add_of_le' hm.1
          exact ih m (by have := hm.2; omega) s hs) (kept (entriesAmong rs)) (fun e he => by
          rw [hqe] at he
          obtain ⟨x, hx, rfl⟩ := List.mem_map.1 he
          have := (hf.names es (List.mem_of_getElem? hi) x.1
            (List.fst_mem_of_mem_zipIdx (List.mem_filter.1 (hq.subset hx)).1)).2.2
          exact ⟨by simp, by simpa using this⟩) (w2, fs1) ⟨g2.file.good, ho1⟩
      refine ⟨s3, .dir ys e, ?_, hs3, es, q, hi, hq, ?_⟩
      · rw [sweep, SM.bind_ok (h := caught_ok h1)]
        simp only
        rw [SM.bind_ok (h := onHandle_eq fs1 g1)]
        exact (SM.bind_ok _ h5).trans rfl
      · rw [hqe, List.forall₂_map_left_iff] at h6
        exact h6.imp fun x y hxy => ⟨hxy.1, by simpa using hxy.2⟩

end MkfsLemmas
end
end MdRecover
