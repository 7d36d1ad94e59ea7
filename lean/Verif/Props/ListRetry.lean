import Verif.Props.Retry
import Verif.Props.Ext4Listing

/-! C103: listing a directory on a device that fails now and then. -/

namespace MdRecover
variable [Build]
open MdSpec

omit [Build] in
theorem blockResults_unique {seed : Option Nat} {b : Bytes} {rs rs' : List (Res (Option DirEntry))}
    (h : BlockResults seed b rs) (h' : BlockResults seed b rs') : rs = rs' := by
  rcases h with ⟨h1, es, h2, rfl⟩ | ⟨h1, rfl⟩ <;> rcases h' with ⟨h3, es', h4, rfl⟩ | ⟨h3, rfl⟩
  · rw [tiles_unique h2 h4]
  · exact absurd h1 h3
  · exact absurd h3 h1
  · rfl

section
variable {W D : Type} {F : Prop} {dev : StreamDev W D} {G : W → Prop} {Is : D → Bytes → Prop}
  {At : W → D → Nat → Prop}

/-- The reads that returned data, as long as no read failed or found the end: they returned the blocks in their
order. -/
theorem reads_blocks (hv : VolumeSpec F dev G Is At) {c : Bytes} (hc : c.length < U64) {w : W} (hG : G w)
    {fs : Ext4Fs D} (ho : Opened Is c fs) {inode : Inode} {f : Ext4File D} (hf : Ext4File.open fs inode = .ok f)
    {xs : List Nat} (hx : Contiguous c (blockSizeOf (sbOf c)) inode.blocksBuffer 0 0 xs)
    (hsize : inode.fileSizeBytes = xs.length * blockSizeOf (sbOf c)) (h32 : xs.length < U32)
    {g : List (Bytes × Res (Nat × Bytes))} {s : W × Ext4File D} (hcalls : Calls dev (w, f) g s)
    (hbuf : ∀ y ∈ g, y.1 = zeros (blockSizeOf (sbOf c))) :
    ∀ g1 g2, g = g1 ++ g2 → (∀ y ∈ g1, ∃ a, y.2 = .ok a) → (∀ y ∈ g1, ¬ AtEnd y.2) →
      g1.length ≤ xs.length ∧ dataCalls g1 = g1.length ∧
      g1.map Prod.snd =
        (xs.take g1.length).map fun x => .ok (blockSizeOf (sbOf c), blockOf c (blockSizeOf (sbOf c)) x) := by
  have hw : BlocksCounted c inode.fileSizeBytes :=
    .inr (by rw [hsize]; exact Nat.mul_le_mul_right _ (by omega))
  have hz : (zeros (blockSizeOf (sbOf c))).length = blockSizeOf (sbOf c) := List.length_replicate
  generalize hs0 : (w, f) = s0 at hcalls
  induction hcalls with
  | nil =>
    intro g1 g2 h0 _ _
    obtain ⟨rfl, rfl⟩ := List.append_eq_nil_iff.1 h0.symm
    exact ⟨Nat.zero_le _, rfl, rfl⟩
  | snoc s s' h buf r hcalls hret hr ih =>
    subst hs0
    have ih := ih (fun y hy => hbuf y (List.mem_append_left _ hy))
    intro g1 g2 h0 hok hend
    rcases List.eq_nil_or_concat g2 with rfl | ⟨g2', y, rfl⟩
    · rw [List.append_nil] at h0
      subst h0
      obtain ⟨i1, i2, i3⟩ := ih h [] (List.append_nil _).symm (fun y hy => hok y (List.mem_append_left _ hy))
        (fun y hy => hend y (List.mem_append_left _ hy))
      have hlast : (buf, r) ∈ h ++ [(buf, r)] := List.mem_append_right _ List.mem_cons_self
      obtain ⟨⟨n, out⟩, hr'⟩ := hok _ hlast
      have hr' : r = .ok (n, out) := hr'
      subst hr'
      have hn : n ≠ 0 := by
        rintro rfl
        exact hend _ hlast ⟨out, rfl⟩
      have hb : buf = zeros (blockSizeOf (sbOf c)) := hbuf _ hlast
      subst hb
      obtain ⟨x, h1, h2, h3, h4⟩ := C64_right_block hv c hc w hG fs ho inode f hf hw h s s' hcalls _ out n hret hn
      obtain ⟨-, h5⟩ := contiguous_map hx h1
      rw [Nat.sub_zero, i2] at h5
      have hlt : h.length < xs.length := (List.getElem?_eq_some_iff.1 h5).1
      have hC1 : dataCalls [(zeros (blockSizeOf (sbOf c)), Res.ok (n, out))] = 1 := by
        unfold dataCalls gotData
        simp [hn]
      have hC : dataCalls (h ++ [(zeros (blockSizeOf (sbOf c)), Res.ok (n, out))]) = dataCalls h + 1 := by
        rw [← hC1]
        exact List.countP_append
      have hmul : (h.length + 1) * blockSizeOf (sbOf c) ≤ xs.length * blockSizeOf (sbOf c) :=
        Nat.mul_le_mul_right _ hlt
      have hn' : n = blockSizeOf (sbOf c) := by
        rw [h4, i2, hsize]
        rw [Nat.add_mul, Nat.one_mul] at hmul
        omega
      have hout : out = blockOf c (blockSizeOf (sbOf c)) x := by
        rw [h3, hz]
        rfl
      rw [List.length_append, List.length_singleton]
      refine ⟨hlt, by rw [hC, i2], ?_⟩
      rw [List.map_append, i3, List.take_add_one, h5, List.map_append]
      simp only [List.map_cons, List.map_nil, Option.toList_some]
      rw [hn', hout]
    · rw [List.concat_eq_append, ← List.append_assoc] at h0
      obtain ⟨h0, -⟩ := List.append_inj' h0 rfl
      exact ih g1 g2' h0 hok hend

omit [Build] in
/-- The results of the first blocks. -/
theorem results_take {seed : Option Nat} {c : Bytes} {bs : Nat} (hbs : bs ≠ 0) :
    ∀ (xs : List Nat) (rss : List (List (Res (Option DirEntry))))
      (_ : List.Forall₂ (fun x rs => BlockResults seed (blockOf c bs x) rs) xs rss)
      (g : List (Bytes × Res (Nat × Bytes))) (rss' : List (List (Res (Option DirEntry))))
      (_ : List.Forall₂ (fun (y : Bytes × Res (Nat × Bytes)) rs => ReadResults seed bs y.2 rs) g rss')
      (_ : g.length ≤ xs.length)
      (_ : g.map Prod.snd = (xs.take g.length).map fun x => .ok (bs, blockOf c bs x)),
      rss' = rss.take g.length := by
  intro xs rss hrss
  induction hrss with
  | nil =>
    intro g rss' h1 h2 _
    have : g = [] := List.length_eq_zero_iff.1 (Nat.le_zero.1 h2)
    subst this
    cases h1
    rfl
  | cons hb hrest ih =>
    intro g rss' h1 h2 h3
    cases h1 with
    | nil => rfl
    | cons hy hg =>
      rename_i x rs xs rss y rs' g rss'
      rw [List.length_cons, List.take_succ_cons, List.map_cons, List.map_cons] at h3
      obtain ⟨h4, h5⟩ := List.cons.inj h3
      rw [List.length_cons, List.take_succ_cons, ← ih g rss' hg (by simpa using h2) h5]
      rw [h4] at hy
      rcases hy with ⟨h6, -⟩ | ⟨-, -, h6⟩ | ⟨-, h6, -⟩
      · exact absurd h6 hbs
      · rw [blockResults_unique h6 hb]
      · exact absurd rfl h6

omit [Build] in
theorem results_errors {seed : Option Nat} {bs : Nat} {g : List (Bytes × Res (Nat × Bytes))}
    {rss : List (List (Res (Option DirEntry)))}
    (h : List.Forall₂ (fun (y : Bytes × Res (Nat × Bytes)) rs => ReadResults seed bs y.2 rs) g rss)
    (hg : ∀ y ∈ g, ∃ e, y.2 = .err e) : ∀ r ∈ rss.flatten, ∃ e, r = .err e := by
  induction h with
  | nil => exact fun r hr => (by cases hr)
  | cons hy _ ih =>
    rename_i y rs g rss _
    obtain ⟨e, he⟩ := hg y List.mem_cons_self
    rw [he] at hy
    have hy : rs = [.err e] := hy
    intro r hr
    rw [List.flatten_cons, hy] at hr
    rcases List.mem_append.1 hr with hr | hr
    · exact ⟨e, List.mem_singleton.1 hr⟩
    · exact ih (fun z hz => hg z (List.mem_cons_of_mem _ hz)) r hr

/-- C103 in part: on a device that may fail at any time, whatever calls were made and however many of them failed,
the results of the calls are the beginning of what calls return on a device that does not fail (block after block
its records, or one error for a block that is not sound; then `None`), up to the first call that failed because the
device did; and every later call fails.  So what has been listed is never out of order, repeated or with a gap, and
`None` is returned only after everything has been listed.  Missing: that the listing can be continued
(`C103_not_continued`). -/
theorem C103_listing_partial (hv : VolumeSpec F dev G Is At) (c : Bytes) (hc : c.length < U64) (w : W)
    (hG : G w) (fs : Ext4Fs D) (ho : Opened Is c fs) (inode : Inode) (d : Ext4Directory D)
    (hd : Ext4Directory.open fs inode = .ok d) (xs : List Nat)
    (hx : Contiguous c (blockSizeOf (sbOf c)) inode.blocksBuffer 0 0 xs)
    (hfull : EntriesFull c (blockSizeOf (sbOf c)) inode.blocksBuffer)
    (hsize : inode.fileSizeBytes = xs.length * blockSizeOf (sbOf c)) (h32 : xs.length < U32)
    (hin : ∀ x ∈ xs, BlockInside c (blockSizeOf (sbOf c)) x)
    (rss : List (List (Res (Option DirEntry))))
    (hrss : List.Forall₂ (fun x rs => BlockResults inode.metadataChecksumSeed
      (blockOf c (blockSizeOf (sbOf c)) x) rs) xs rss)
    (h : List (Res (Option DirEntry))) (s : W × Ext4Directory D) (hcalls : DirCalls dev (w, d) h s) :
    (∃ k, h <+: rss.flatten ++ List.replicate k (.ok none)) ∨
      ∃ m es, m < xs.length ∧ h = (rss.take m).flatten ++ es ∧ ∀ r ∈ es, ∃ e, r = .err e := by
  have hpos : 0 < blockSizeOf (sbOf c) := Nat.mul_pos (by omega) (Nat.two_pow_pos _)
  have hw : BlocksCounted c inode.fileSizeBytes :=
    .inr (by rw [hsize]; exact Nat.mul_le_mul_right _ (by omega))
  obtain ⟨f, hf⟩ : ∃ f, Ext4File.open fs inode = .ok f := by
    unfold Ext4Directory.open at hd
    split at hd
    · cases hd
    · rcases hf : Ext4File.open fs inode with f | e | _
      · exact ⟨f, rfl⟩
      · rw [hf] at hd; cases hd
      · rw [hf] at hd; cases hd
  obtain ⟨g, rss', s', hg, hbuf, hres, hcase⟩ :=
    C72_follows hv c hc w hG fs ho inode d hd hw f hf h s hcalls
  have hblocks := reads_blocks hv hc hG ho hf hx hsize h32 hg hbuf
  obtain ⟨hi0, hp0, -, hs0⟩ := Ext4File.open_inv (w := w) hG ho hf
    (TreeNode c (blockSizeOf (sbOf c)) inode.blocksBuffer) .root
  have hal : Ext4File.Alive Is G c inode.blocksBuffer inode xs.length (w, f) := by
    refine ⟨hi0, xs, ?_, ?_⟩
    · show Ext4File.Pending _ _ f.stack f.blockPos _
      rw [hs0, hp0, ← List.append_nil xs]
      exact .tree _ _ _ _ _ _ hx (.nil _)
    · show f.blockPos + _ = _
      omega
  have hlast' : ∀ p, p < xs.length → p * blockSizeOf (sbOf c) < inode.fileSizeBytes := by
    intro p hp
    rw [hsize]
    exact Nat.mul_lt_mul_of_pos_right hp hpos
  have hbuf' : ∀ y ∈ g, ¬ y.1.length < blockSizeOf (sbOf c) := by
    intro y hy h0
    rw [hbuf y hy] at h0
    have : (zeros (blockSizeOf (sbOf c))).length = blockSizeOf (sbOf c) := List.length_replicate
    omega
  rcases Ext4File.alive_calls hv hc hfull (by omega) hlast' h32 hg hal with ⟨-, hall⟩ |
      ⟨hdead, g1, x, g2, rfl, -, ⟨e, hxe⟩, hbefore, hafter⟩
  · have hall : ∀ y ∈ g, ∃ a, y.2 = .ok a := fun y hy => (hall y hy).resolve_left (hbuf' y hy)
    left
    rcases hcase with ⟨hne, hpre⟩ | ⟨g', x, k, rfl, hxe, hne, rfl⟩
    · obtain ⟨h1, h2, h3⟩ := hblocks g [] (List.append_nil _).symm hall hne
      have h4 := results_take (by omega) xs rss hrss g rss' hres h1 h3
      refine ⟨0, ?_⟩
      rw [List.replicate_zero, List.append_nil]
      refine hpre.trans ?_
      rw [h4]
      obtain ⟨t, ht⟩ := List.take_prefix g.length rss
      exact ⟨t.flatten, by rw [← List.flatten_append, ht]⟩
    · obtain ⟨h1, h2, h3⟩ := hblocks g' [x] rfl (fun y hy => hall y (List.mem_append_left _ hy)) hne
      obtain ⟨out, hout⟩ := hxe
      have hwhole := (C102_prefix_partial hv c hc w hG fs ho inode f hf xs hx hin (by omega) h32 _ _ hg).2
        ⟨x.1, out, List.mem_append_right _ (by rw [← hout]; exact List.mem_cons_self)⟩
      have hD : dataOf (g' ++ [x]) = dataOf g' ++ dataOf [x] := List.flatMap_append
      have hD1 : dataOf [x] = [] := by
        unfold dataOf
        obtain ⟨b, r⟩ := x
        have hout : r = .ok (0, out) := hout
        subst hout
        simp
      have hlen : (dataOf g').length ≤ g'.length * blockSizeOf (sbOf c) := by
        have hD' : dataOf g' = (xs.take g'.length).flatMap (blockOf c (blockSizeOf (sbOf c))) := by
          have h5 : dataOf g' = (g'.map Prod.snd).flatMap (fun r => match r with
              | .ok (n, out) => out.take n
              | _ => []) := by
            rw [List.flatMap_map]
            rfl
          rw [h5, h3, List.flatMap_map]
          refine List.flatMap_congr fun y hy => ?_
          simp only
          refine List.take_of_length_le ?_
          unfold blockOf
          rw [List.length_take]
          exact Nat.min_le_left _ _
        rw [hD', List.length_flatMap]
        have : ∀ l : List Nat, (l.map fun y => (blockOf c (blockSizeOf (sbOf c)) y).length).sum ≤
            l.length * blockSizeOf (sbOf c) := by
          intro l
          induction l with
          | nil => exact Nat.zero_le _
          | cons y l ih =>
            rw [List.map_cons, List.sum_cons, List.length_cons, Nat.add_mul, Nat.one_mul]
            have : (blockOf c (blockSizeOf (sbOf c)) y).length ≤ blockSizeOf (sbOf c) := by
              unfold blockOf
              rw [List.length_take]
              exact Nat.min_le_left _ _
            omega
        refine Nat.le_trans (this _) ?_
        exact Nat.mul_le_mul_right _ (by rw [List.length_take]; omega)
      have hall' : xs.length * blockSizeOf (sbOf c) ≤ (dataOf g').length := by
        have h5 : dataOf g' = (xs.flatMap (blockOf c (blockSizeOf (sbOf c)))).take inode.fileSizeBytes := by
          rw [← hwhole, hD, hD1, List.append_nil]
        have h6 : ∀ l : List Nat, (∀ y ∈ l, BlockInside c (blockSizeOf (sbOf c)) y) →
            (l.flatMap (blockOf c (blockSizeOf (sbOf c)))).length = l.length * blockSizeOf (sbOf c) := by
          intro l
          induction l with
          | nil => exact fun _ => (Nat.zero_mul _).symm
          | cons y l ih =>
            intro hl
            have hy := hl y List.mem_cons_self
            unfold BlockInside at hy
            have : (blockOf c (blockSizeOf (sbOf c)) y).length = blockSizeOf (sbOf c) := by
              unfold blockOf
              rw [List.length_take, List.length_drop]
              omega
            rw [List.flatMap_cons, List.length_append, this, ih (fun z hz => hl z (List.mem_cons_of_mem _ hz)),
              List.length_cons, Nat.add_mul, Nat.one_mul, Nat.add_comm]
        rw [h5, List.length_take, h6 xs hin, hsize, Nat.min_self]
      have heq : g'.length = xs.length :=
        Nat.le_antisymm h1 (Nat.le_of_mul_le_mul_right (Nat.le_trans hall' hlen) hpos)
      obtain ⟨l1, l2, hl1, hl2, rfl⟩ : ∃ l1 l2, List.Forall₂ (fun (y : Bytes × Res (Nat × Bytes)) rs =>
          ReadResults inode.metadataChecksumSeed (blockSizeOf (sbOf c)) y.2 rs) g' l1 ∧
          List.Forall₂ (fun (y : Bytes × Res (Nat × Bytes)) rs =>
          ReadResults inode.metadataChecksumSeed (blockSizeOf (sbOf c)) y.2 rs) [x] l2 ∧ rss' = l1 ++ l2 := by
        have h7 := List.forall₂_iff_get.1 hres
        refine ⟨rss'.take g'.length, rss'.drop g'.length, ?_, ?_, (List.take_append_drop _ _).symm⟩
        · have := List.forall₂_take g'.length hres
          rwa [List.take_left] at this
        · have := List.forall₂_drop g'.length hres
          rwa [List.drop_left] at this
      have h4 := results_take (by omega) xs rss hrss g' l1 hl1 h1 h3
      have hl : l2.flatten = [] := by
        cases hl2 with
        | cons hy hnil =>
          cases hnil
          rw [hout] at hy
          rcases hy with ⟨-, h5⟩ | ⟨h5, -⟩ | ⟨h5, -⟩
          · rw [h5]
            rfl
          · exact absurd rfl h5
          · exact absurd rfl h5
      refine ⟨k, ?_⟩
      have hrl : rss.length = xs.length := hrss.length_eq.symm
      rw [List.flatten_append, hl, List.append_nil, h4, heq, ← hrl, List.take_length]
  · have hbefore : ∀ y ∈ g1, ∃ a, y.2 = .ok a :=
      fun y hy => (hbefore y hy).resolve_left (hbuf' y (List.mem_append_left _ hy))
    have herr : ∀ y ∈ x :: g2, ∃ e, y.2 = .err e := by
      intro y hy
      rcases List.mem_cons.1 hy with rfl | hy
      · exact ⟨e, hxe⟩
      · exact hafter y hy
    rcases hcase with ⟨hne, hpre⟩ | ⟨g', y, k, hgg, ⟨out, hy⟩, -, -⟩
    · obtain ⟨h1, h2, h3⟩ := hblocks g1 (x :: g2) rfl hbefore (fun y hy => hne y (List.mem_append_left _ hy))
      have hl1 := List.forall₂_take g1.length hres
      rw [List.take_left] at hl1
      have hl2 := List.forall₂_drop g1.length hres
      rw [List.drop_left] at hl2
      have h4 := results_take (by omega) xs rss hrss g1 _ hl1 h1 h3
      have h5 := results_errors hl2 herr
      have hsplit : rss'.flatten = (rss.take g1.length).flatten ++ (rss'.drop g1.length).flatten := by
        rw [← h4, ← List.flatten_append, List.take_append_drop]
      have hm : g1.length < xs.length := by
        obtain ⟨hinv, hp⟩ := Ext4File.calls_inv hv hc
          (fun node i h1 h2 h3 h4 h5 => .child node i h1 h2 h3 h4 h5) hg hi0 hw
        have h6 : s'.2.bytePos = min (s'.2.blockPos * blockSizeOf (sbOf c)) inode.fileSizeBytes := hinv.bytes
        have h7 : s'.2.fileSizeBytes = inode.fileSizeBytes := by
          unfold Ext4File.fileSizeBytes
          rw [hinv.inode]
        have h8 := hdead.bytes
        have h9 : dataCalls (g1 ++ x :: g2) = dataCalls g1 + dataCalls (x :: g2) := List.countP_append
        have h10 : dataCalls (x :: g2) = 0 := by
          unfold dataCalls
          rw [List.countP_eq_zero]
          intro y hy
          obtain ⟨e, he⟩ := herr y hy
          rw [he]
          exact Bool.false_ne_true
        have hp' : s'.2.blockPos = g1.length := by
          rw [hp, h9, h10, h2]
          show f.blockPos + _ = _
          omega
        rw [h6, h7, hp', hsize] at h8
        refine Nat.lt_of_not_le fun h11 => h8 (Nat.min_eq_right (Nat.mul_le_mul_right _ h11))
      rw [hsplit] at hpre
      have hpre' : h <+: (rss.take g1.length).flatten ∨
          ∃ es, h = (rss.take g1.length).flatten ++ es ∧ es <+: (rss'.drop g1.length).flatten := by
        rcases List.prefix_or_prefix_of_prefix hpre (List.prefix_append _ _) with h6 | ⟨es, rfl⟩
        · exact .inl h6
        · exact .inr ⟨es, rfl, (List.prefix_append_right_inj _).1 hpre⟩
      rcases hpre' with h6 | ⟨es, h6, h7⟩
      · left
        refine ⟨0, ?_⟩
        rw [List.replicate_zero, List.append_nil]
        refine h6.trans ?_
        obtain ⟨t, ht⟩ := List.take_prefix g1.length rss
        exact ⟨t.flatten, by rw [← List.flatten_append, ht]⟩
      · exact .inr ⟨g1.length, es, hm, h6, fun r hr => h5 r (h7.subset hr)⟩
    · exfalso
      have hlast := congrArg List.getLast? hgg
      rw [List.getLast?_append, List.getLast?_concat] at hlast
      have hmem : y ∈ x :: g2 := by
        refine List.mem_of_getLast? ?_
        rcases hl : (x :: g2).getLast? with _ | z
        · cases List.getLast?_eq_none_iff.1 hl
        · rw [hl] at hlast
          simpa using hlast
      obtain ⟨e, he⟩ := herr y hmem
      rw [hy] at he
      cases he

omit [Build] in
theorem results_not_none {seed : Option Nat} {c : Bytes} {bs : Nat} {xs : List Nat}
    {rss : List (List (Res (Option DirEntry)))}
    (h : List.Forall₂ (fun x rs => BlockResults seed (blockOf c bs x) rs) xs rss) :
    (Res.ok none : Res (Option DirEntry)) ∉ rss.flatten := by
  induction h with
  | nil => exact fun h => (by cases h)
  | cons hb _ ih =>
    rw [List.flatten_cons]
    intro h
    rcases List.mem_append.1 h with h | h
    · rcases hb with ⟨-, es, -, rfl⟩ | ⟨-, rfl⟩
      · obtain ⟨e, -, h⟩ := List.mem_map.1 h
        cases h
      · cases List.mem_singleton.1 h
    · exact ih h

/-- C103, the end: if a call returned `None`, then everything was listed before, whatever failed. -/
theorem C103_end (hv : VolumeSpec F dev G Is At) (c : Bytes) (hc : c.length < U64) (w : W)
    (hG : G w) (fs : Ext4Fs D) (ho : Opened Is c fs) (inode : Inode) (d : Ext4Directory D)
    (hd : Ext4Directory.open fs inode = .ok d) (xs : List Nat)
    (hx : Contiguous c (blockSizeOf (sbOf c)) inode.blocksBuffer 0 0 xs)
    (hfull : EntriesFull c (blockSizeOf (sbOf c)) inode.blocksBuffer)
    (hsize : inode.fileSizeBytes = xs.length * blockSizeOf (sbOf c)) (h32 : xs.length < U32)
    (hin : ∀ x ∈ xs, BlockInside c (blockSizeOf (sbOf c)) x)
    (rss : List (List (Res (Option DirEntry))))
    (hrss : List.Forall₂ (fun x rs => BlockResults inode.metadataChecksumSeed
      (blockOf c (blockSizeOf (sbOf c)) x) rs) xs rss)
    (h : List (Res (Option DirEntry))) (s : W × Ext4Directory D) (hcalls : DirCalls dev (w, d) h s)
    (hnone : .ok none ∈ h) : ∃ k, h = rss.flatten ++ List.replicate k (.ok none) := by
  have hnot := results_not_none hrss
  rcases C103_listing_partial hv c hc w hG fs ho inode d hd xs hx hfull hsize h32 hin rss hrss h s hcalls with
    ⟨k, hk⟩ | ⟨m, es, -, rfl, hes⟩
  · rcases List.prefix_or_prefix_of_prefix hk (List.prefix_append _ _) with h1 | ⟨es, rfl⟩
    · exact absurd (h1.subset hnone) hnot
    · have h1 : es <+: List.replicate k (.ok none) := (List.prefix_append_right_inj _).1 hk
      refine ⟨es.length, ?_⟩
      rw [← List.eq_replicate_of_mem fun r hr => List.eq_of_mem_replicate (h1.subset hr)]
  · exfalso
    rcases List.mem_append.1 hnone with h1 | h1
    · obtain ⟨t, ht⟩ := List.take_prefix m rss
      exact hnot (by rw [← ht, List.flatten_append]; exact List.mem_append_left _ h1)
    · obtain ⟨e, he⟩ := hes _ h1
      cases he

end

/-! ## A case -/

open Fixture

omit [Build] in
theorem full2 : EntriesFull smallFs 1024 (root smallFs 2) := by
  obtain ⟨-, -, h1, h2, h3, h4, h5, h6⟩ := root_tree
  have hl := extentLen_of h5 (by omega)
  intro node h
  have : node = root smallFs 2 := by
    induction h with
    | root => rfl
    | child node i _ g1 g2 _ _ ih =>
      subst ih
      exact absurd h1 g1
  subst this
  refine ⟨by omega, fun _ i hi => ?_⟩
  obtain rfl : i = 0 := by omega
  omega

omit [Build] in
/-- The directory of the hand-made filesystem. -/
theorem dir2_open {D : Type} (fs : Ext4Fs D) : Ext4Directory.open fs (inodeOf smallFs 2) =
    .ok ⟨⟨fs, inodeOf smallFs 2, [.tree (.fromInternal (.fromInode (inodeOf smallFs 2))) 0], 0, 0⟩, .start⟩ := by
  unfold Ext4Directory.open
  rw [if_neg (by rw [root_tree.1]; decide)]
  unfold Ext4File.open ExtentTree.fromInode
  rw [if_pos (has_extents 2 (by omega) (by omega))]
  rfl

omit [Build] in
theorem dir2_results : List.Forall₂ (fun x rs => BlockResults (inodeOf smallFs 2).metadataChecksumSeed
      (blockOf smallFs 1024 x) rs) [5]
    [(listOf 128 (blockOf smallFs 1024 5)).map fun e => .ok (some ⟨e⟩)] := by
  have hlen := smallFs_length
  have hb : (blockOf smallFs 1024 5).length = 1024 := by
    unfold blockOf; rw [List.length_take, List.length_drop]; omega
  have hseed : (inodeOf smallFs 2).metadataChecksumSeed = none := rfl
  rw [hseed]
  refine .cons (.inl ⟨fun s hs => (by cases hs), _, ?_, rfl⟩) .nil
  show Tiles ((blockOf smallFs 1024 5).take (blockOf smallFs 1024 5).length) _
  rw [List.take_length]
  exact tiles_listOf 128 _ (by omega)

/-- Case for `C103_listing_partial` and `C103_end`: the root directory of the hand-made filesystem, with the four
records of block 5, read through a file-backed device with any short reads and failures. -/
theorem C103_case (fs : Ext4Fs FileDev) (ho : Opened (fun d c => d.content = c) smallFs fs)
    (d : Ext4Directory FileDev) (hd : Ext4Directory.open fs (inodeOf smallFs 2) = .ok d) (K : Kernel)
    (h : List (Res (Option DirEntry))) (s : Kernel × Ext4Directory FileDev)
    (hcalls : DirCalls FileDev.streamDev (K, d) h s) :
    ((∃ k, h.map seenRes <+: [.ok (some ⟨2, ⟨[46]⟩, .directory⟩), .ok (some ⟨2, ⟨[46, 46]⟩, .directory⟩),
        .ok (some ⟨3, ⟨[100, 97, 116, 97]⟩, .regularFile⟩),
        .ok (some ⟨4, ⟨[108, 111, 111, 112]⟩, .regularFile⟩)] ++ List.replicate k (.ok none)) ∨
      ∀ r ∈ h, ∃ e, r = .err e) := by
  have hlen := smallFs_length
  have hbs := smallFs_like.blockSize
  obtain ⟨t1, t2, -⟩ := root_tree
  rcases C103_listing_partial FileDev.volumeSpec_honest smallFs (by omega) K trivial fs ho _ d hd [5]
    (by rw [hbs]; exact root_contiguous smallFs) (by rw [hbs]; exact full2) (by rw [hbs, t2]; rfl) (by decide)
    (by rw [hbs]; unfold BlockInside; rw [hlen]; decide) _ (by rw [hbs]; exact dir2_results) h s hcalls with
    ⟨k, hk⟩ | ⟨m, es, hm, rfl, hes⟩
  · left
    refine ⟨k, ?_⟩
    have := List.IsPrefix.map seenRes hk
    rw [List.flatten_singleton, seen_listing, root_records.1] at this
    exact this
  · right
    obtain rfl : m = 0 := by
      have : m < 1 := hm
      omega
    exact hes

/-- C103 is false as stated: the first call on the directory fails, as the device could not be read at that moment.
The next call fails too, although the device is readable again.  The directory opened anew is listed. -/
theorem C103_not_continued : ∃ (K : Kernel) (fs : Ext4Fs FileDev) (d : Ext4Directory FileDev)
    (s1 s2 : Kernel × Ext4Directory FileDev) (h : List (Res (Option DirEntry)))
    (s3 : Kernel × Ext4Directory FileDev),
    Ext4Fs.open FileDev.streamDev ⟨7, smallFs, 512⟩ ⟨fun _ => 0, [], fun _ => 0⟩ = (K, .ok fs) ∧
    Ext4Directory.open fs (inodeOf smallFs 2) = .ok d ∧
    EntryReturns FileDev.streamDev ({ K with schedule := [.fail 5] }, d) s1 (.err (.os 5)) ∧
    s1.1.schedule = [] ∧
    EntryReturns FileDev.streamDev s1 s2 (.err .unexpectedEof) ∧
    DirCalls FileDev.streamDev (s1.1, d) h s3 ∧
    h.map seenRes = [.ok (some ⟨2, ⟨[46]⟩, .directory⟩), .ok (some ⟨2, ⟨[46, 46]⟩, .directory⟩),
        .ok (some ⟨3, ⟨[100, 97, 116, 97]⟩, .regularFile⟩),
        .ok (some ⟨4, ⟨[108, 111, 111, 112]⟩, .regularFile⟩), .ok none] := by
  have hlen := smallFs_length
  have hbs := smallFs_like.blockSize
  have hz : (zeros 1024).length = 1024 := List.length_replicate
  obtain ⟨t1, hsz, a1, a2, a3, a4, a5, a6⟩ := root_tree
  have hnf : FileDev.NoFailures ⟨fun _ => 0, [], fun _ => 0⟩ := fun _ h => (by cases h)
  obtain ⟨K, fs, hopen, hK, -⟩ := C57_opens FileDev.volumeSpec_reliable smallFs ⟨fun _ => 0, [], fun _ => 0⟩
    ⟨7, smallFs, 512⟩ hnf rfl smallFs_like.openable (by omega)
  obtain ⟨K', r, h1, -, h2⟩ := Ext4Fs.open_spec FileDev.volumeSpec_reliable hnf
    (d := (⟨7, smallFs, 512⟩ : FileDev)) (c := smallFs) rfl (.inr (by have := smallFs_like.openable.fits; omega))
  rw [hopen] at h1
  cases h1
  have ho : Opened (fun d c => d.content = c) smallFs fs := by
    rcases h2 with ⟨fs, h2, ho, -⟩ | ⟨-, e, h2⟩ | ⟨-, h2⟩ <;> cases h2
    exact ho
  obtain ⟨off', hread⟩ := readBlock_fails fs ho 5 (by omega) K.offset K.beyond
  have hst : (ExtentNode.fromInode (inodeOf smallFs 2)).storage = root smallFs 2 := rfl
  have hfit : NodeFits (root smallFs 2) := by unfold NodeFits; omega
  have hret : Returns FileDev.streamDev (⟨K.offset, [.fail 5], K.beyond⟩,
      ⟨fs, inodeOf smallFs 2, [.tree (.fromInternal (.fromInode (inodeOf smallFs 2))) 0], 0, 0⟩) (zeros 1024)
      (⟨off', [], K.beyond⟩,
        ⟨fs, inodeOf smallFs 2, [.tree (.fromInternal (.fromInode (inodeOf smallFs 2))) 1], 0, 0⟩)
      (.err (.os 5)) := by
    refine (Ext4File.returns_iff ho (by rw [hbs, hz])).2 ⟨(⟨K.offset, [.fail 5], K.beyond⟩,
        ⟨fs, inodeOf smallFs 2, [.extent ⟨nodeEntry (root smallFs 2) 0⟩ 0,
          .tree (.fromInternal (.fromInode (inodeOf smallFs 2))) 1], 0, 0⟩), .head _ _ _ ?_ (.refl _), ?_⟩
    · rw [Ext4File.step_tree _ _ _ _ rfl, Ext4File.stepTree_leaf _ _ _ _ (by rw [hst]; omega)
        (by rw [hst]; exact hfit) (by rw [hst]; exact a1), hst, if_pos a4]
    · rw [Ext4File.step_extent _ _ _ _ rfl]
      unfold Ext4File.stepExtent
      rw [Ext4File.get_bind]
      simp only
      rw [if_pos (by rw [Extent.length_eq, a5]; omega), if_neg (by
        show ¬ 0 ≥ (inodeOf smallFs 2).fileSizeBytes
        omega)]
      rw [Extent.start_eq, a6, SM.bind_err (h := Ext4File.onFs_eq hread)]
      rfl
  have hret2 : Returns FileDev.streamDev (⟨off', [], K.beyond⟩,
      ⟨fs, inodeOf smallFs 2, [.tree (.fromInternal (.fromInode (inodeOf smallFs 2))) 1], 0, 0⟩) (zeros 1024)
      (⟨off', [], K.beyond⟩, ⟨fs, inodeOf smallFs 2, [], 0, 0⟩) (.err .unexpectedEof) := by
    refine (Ext4File.returns_iff ho (by rw [hbs, hz])).2 ⟨(⟨off', [], K.beyond⟩,
        ⟨fs, inodeOf smallFs 2, [], 0, 0⟩), .head _ _ _ ?_ (.refl _), ?_⟩
    · rw [Ext4File.step_tree _ _ _ _ rfl, Ext4File.stepTree_done _ _ _ _ (by rw [hst]; omega)]
    · rw [Ext4File.step_empty _ _ _ _ rfl, if_neg]
      · rfl
      · show 0 ≠ (inodeOf smallFs 2).fileSizeBytes
        omega
  have hfail : ∀ (k k' : Kernel) (f f' : Ext4File FileDev) (e : ErrKind), Opened (fun d c => d.content = c) smallFs f.fs →
      Returns FileDev.streamDev (k, f) (zeros 1024) (k', f') (.err e) →
      EntryReturns FileDev.streamDev (k, ⟨f, .start⟩) (k', ⟨f', .start⟩) (.err e) := by
    intro k k' f f' e hof hr
    refine (Ext4Directory.entryReturns_start rfl).2 (.inr ⟨.err e, ?_, fun h => (by cases h), rfl⟩)
    refine (Ext4Directory.advances_iff (bs := 1024) ?_).2 ⟨_, _, hr, rfl⟩
    show f.blockSize = _
    rw [Ext4File.blockSize_eq hof, hbs]
  have hn := congrArg List.length root_records.1
  rw [List.length_map] at hn
  have hn : (listOf 128 (blockOf smallFs 1024 5)).length = 4 := hn
  obtain ⟨s3, hlist⟩ := C72_lists FileDev.volumeSpec_reliable smallFs (by omega) ⟨off', [], K.beyond⟩
    (fun _ h => (by cases h)) fs ho
    (inodeOf smallFs 2) _ (dir2_open fs) [5] (by rw [hbs]; exact root_contiguous smallFs)
    (by rw [hbs, hsz]; rfl) (by decide)
    (by rw [hbs]; unfold BlockInside; rw [hlen]; decide) _ (by rw [hbs]; exact dir2_results) 5
  rw [List.flatten_singleton, listing_eq _ (by omega)] at hlist
  refine ⟨K, fs, _, _, _, _, s3, hopen, dir2_open fs, hfail _ _ _ _ _ ho hret, rfl,
    hfail _ _ _ _ _ ho hret2, hlist, ?_⟩
  rw [seen_listing, root_records.1, hn]
  rfl

end MdRecover
