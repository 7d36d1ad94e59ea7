import Verif.Spec.WholeSet
import Verif.Props.AnyMembers
import Verif.Props.EndToEndCases

/-! C115: data of an array come from a complete set of disks that agree. -/

namespace MdRecover
open MdSpec

theorem Raid6Algorithm.layout_exists (alg : Raid6Algorithm) : ∃ L, Raid6Algorithm.fromLayout L = some alg := by
  cases alg
  all_goals first
    | exact ⟨0, rfl⟩ | exact ⟨1, rfl⟩ | exact ⟨2, rfl⟩ | exact ⟨3, rfl⟩ | exact ⟨4, rfl⟩ | exact ⟨5, rfl⟩
    | exact ⟨8, rfl⟩ | exact ⟨9, rfl⟩ | exact ⟨10, rfl⟩ | exact ⟨16, rfl⟩ | exact ⟨17, rfl⟩ | exact ⟨18, rfl⟩
    | exact ⟨19, rfl⟩ | exact ⟨20, rfl⟩

section
variable {W D : Type}

/-- What a read that returned data tells about the array. -/
theorem MdArray.readBlock_ok {dev : BlockDev W D} {a : ArrayDef D} {b : Nat} {buf : Bytes} {w : W} {v : Nat × Bytes}
    (h : ((MdArray.dev dev).readBlock b buf (w, a)).2 = .ok v) :
    ∃ f alg, MdArray.formatInUse a = some f ∧ f.algorithm = .raid6 alg ∧
      (b < U64 → f.deviceCount < U32 → 3 ≤ f.deviceCount ∧ 0 < f.chunkSize) := by
  have h' : (MdArray.readBlock dev b buf (w, a)).2 = .ok v := h
  unfold MdArray.readBlock at h'
  by_cases hs : buf.length < 512
  · rw [if_pos hs] at h'; cases h'
  rw [if_neg hs] at h'
  cases hf : MdArray.formatInUse a with
  | none => simp only [hf] at h'; cases h'
  | some f =>
    simp only [hf] at h'
    cases halg : f.algorithm with
    | unsupported l y => rw [halg] at h'; cases h'
    | raid5 alg => rw [halg] at h'; cases h'
    | raid6 alg =>
      refine ⟨f, alg, rfl, halg, fun hb hn => ?_⟩
      rw [halg] at h'
      simp only [MdAlgorithm.readSector] at h'
      rcases hcs : alg.computeSector b f.chunkSize f.deviceCount with _ | ⟨sec, p, q, d⟩
      · rw [Raid6Algorithm.readSector, hcs] at h'; cases h'
      obtain ⟨hc, hn, -⟩ := alg.computeSector_some hb hn hcs
      exact ⟨hn, hc⟩

/-- The formats that an array opened from `devices` uses. -/
theorem MdArray.inUse_agreed {ord : IterOrder} {devices : List (MdDevice D)} {f : MdFormat} {alg : Raid6Algorithm}
    (hf : MdArray.formatInUse (MdArray.open ord devices) = some f) (halg : f.algorithm = .raid6 alg)
    {L : Nat} (hL : Raid6Algorithm.fromLayout L = some alg)
    (hn : ∀ d ∈ devices, ∀ s, d.superblock = .superblock s → s.raidDeviceCount < U32) :
    Agreed devices L f.deviceCount f.chunkSize f.sectorsPerDevice ∧ f.deviceCount < U32 := by
  rcases Option.or_eq_some_iff.mp hf with h | ⟨-, h⟩
  · obtain ⟨h0, hall⟩ := (C22_new_format_iff ord devices f).mp h
    refine ⟨⟨alg, hL, .inr ⟨h0, fun d hd => ?_⟩⟩, ?_⟩
    · obtain ⟨s, hs, st, h1, h2, -, h3, h4, h5⟩ := hall d hd
      exact ⟨s, hs, st, h1, h2.trans halg, h3, h4, h5⟩
    · obtain ⟨d, hd⟩ := List.exists_mem_of_ne_nil _ h0
      obtain ⟨s, hs, st, h1, h2, h3, h4, -⟩ := hall d hd
      rwa [h4] at h3
  · obtain ⟨h0, hall⟩ := (C22_format_iff ord devices f).mp h
    refine ⟨⟨alg, hL, .inl ⟨h0, fun d hd => ?_⟩⟩, ?_⟩
    · obtain ⟨s, hs, h2, h3, h4, h5⟩ := hall d hd
      exact ⟨s, hs, h2.trans halg, h3, h4, h5⟩
    · obtain ⟨d, hd⟩ := List.exists_mem_of_ne_nil _ h0
      obtain ⟨s, hs, h2, h3, -⟩ := hall d hd
      rw [← h3]
      exact hn d hd s hs

/-- C115, the disks: whatever the disks are and do, if the array opened from them returns data for any sector, then
all of them have superblocks that agree on the shape of a RAID6 array, and for each of its members there is exactly
one of them that claims to be it.  (Numbers of devices are 32-bit numbers.) -/
theorem C115_complete {ord : IterOrder} (hord : ord.Valid) (dev : BlockDev W D) (devices : List (MdDevice D))
    (hn : ∀ d ∈ devices, ∀ s, d.superblock = .superblock s → s.raidDeviceCount < U32)
    (b : Nat) (hb : b < U64) (buf : Bytes) (w : W) (v : Nat × Bytes)
    (h : ((MdArray.dev dev).readBlock b buf (w, MdArray.open ord devices)).2 = .ok v) :
    ∃ L n c size, Agreed devices L n c size ∧ 3 ≤ n ∧ 0 < c ∧ ∀ k, k < n → ∃ x, SoleClaim devices x k := by
  obtain ⟨f, alg, hf, halg, hgeo⟩ := MdArray.readBlock_ok h
  obtain ⟨L, hL⟩ := alg.layout_exists
  obtain ⟨hag, hlt⟩ := MdArray.inUse_agreed hf halg hL hn
  obtain ⟨h3, hc⟩ := hgeo hb hlt
  refine ⟨L, _, _, _, hag, h3, hc, fun k hk => ?_⟩
  cases hg : (MdArray.open ord devices).devices.get k with
  | none =>
    exact absurd h (C19_missing_member_no_data dev _ (Option.or_eq_some_iff.mp hf) halg hlt hk hg hb buf w v)
  | some x => exact ⟨x, (C24_active_iff hord devices k x).1 hg⟩

/-- What a read that returned data tells about the disks it was made from. -/
theorem MdArray.read_from_disks {F : Prop} {dev : BlockDev W D} {G : W → Prop} {Is : D → Disk → Prop}
    (hd : DevSpec F dev G Is) {a : ArrayDef D} {disks : Nat → Option Disk} (h1 : MdArray.Disks Is a.devices disks)
    {f : MdFormat} {alg : Raid6Algorithm} {L : Nat} (hf : MdArray.formatInUse a = some f)
    (halg : f.algorithm = .raid6 alg) (hL : Raid6Algorithm.fromLayout L = some alg) (hlt : f.deviceCount < U32)
    {b : Nat} (hb : b < U64) {buf : Bytes} {w : W} (hG : G w) {v : Nat × Bytes}
    (h : ((MdArray.dev dev).readBlock b buf (w, a)).2 = .ok v) :
    3 ≤ f.deviceCount ∧ 0 < f.chunkSize ∧
      (∀ k, k < f.deviceCount → ∃ x kk, a.devices.get k = some x ∧ disks k = some kk ∧ Is x.device kk ∧
        (b / f.chunkSize / (f.deviceCount - 2) * f.chunkSize + b % f.chunkSize) * 512 + 512 ≤ kk.content.length) ∧
      StripeSound L f.deviceCount f.chunkSize (fun k => (disks k).getD ⟨512, 0, []⟩) b ∧
      ∃ row d, raid6Row L f.deviceCount (b / f.chunkSize / (f.deviceCount - 2)) = some row ∧
        row[d]? = some (.D (b / f.chunkSize % (f.deviceCount - 2))) ∧
        v = (512, ((disks d).getD ⟨512, 0, []⟩).sector
          (b / f.chunkSize / (f.deviceCount - 2) * f.chunkSize + b % f.chunkSize)) := by
  obtain ⟨h3, hc⟩ : 3 ≤ f.deviceCount ∧ 0 < f.chunkSize := by
    obtain ⟨f', alg', hf', -, hgeo⟩ := MdArray.readBlock_ok h
    rw [hf] at hf'
    cases hf'
    exact hgeo hb hlt
  have hact : ∀ k, k < f.deviceCount → ∃ x, a.devices.get k = some x := by
    intro k hk
    cases hg : a.devices.get k with
    | none =>
      exact absurd h (C19_missing_member_no_data dev _ (Option.or_eq_some_iff.mp hf) halg hlt hk hg hb buf w v)
    | some x => exact ⟨x, rfl⟩
  obtain ⟨-, -, ⟨-, e, he⟩ | hr⟩ := MdArray.readBlock_spec hd (disks := disks) h1 b buf hG
  · cases h.symm.trans he
  have hr := h.symm.trans hr
  rw [hf] at hr
  unfold MdArray.pureRead at hr
  by_cases hs : buf.length < 512
  · rw [if_pos hs] at hr; cases hr
  rw [if_neg hs] at hr
  simp only [halg, MdAlgorithm.readSector] at hr
  cases hq : (alg.readSector b f.chunkSize f.deviceCount (MdArray.pureFn (MdArray.memberAnswer disks)) ()).2 with
  | err e => rw [hq] at hr; cases hr
  | panic => rw [hq] at hr; cases hr
  | ok block =>
    rw [hq] at hr
    simp only at hr
    split at hr
    · cases hr
    cases hr
    have hsec : b / (f.chunkSize * (f.deviceCount - 2)) * f.chunkSize + b % f.chunkSize =
        b / f.chunkSize / (f.deviceCount - 2) * f.chunkSize + b % f.chunkSize := by
      rw [Nat.div_div_eq_div_mul]
    have hmem : ∀ k, k < f.deviceCount → ∃ x kk, a.devices.get k = some x ∧ disks k = some kk ∧ Is x.device kk ∧
        (b / f.chunkSize / (f.deviceCount - 2) * f.chunkSize + b % f.chunkSize) * 512 < U64 ∧
        (b / f.chunkSize / (f.deviceCount - 2) * f.chunkSize + b % f.chunkSize) * 512 + 512 ≤ kk.content.length := by
      intro k hk
      obtain ⟨x, hx⟩ := hact k hk
      rcases h1 k with ⟨h, -⟩ | ⟨x', kk, g1, g2, g3⟩
      · rw [hx] at h; cases h
      rw [hx] at g1
      cases g1
      refine ⟨x, kk, hx, g2, g3, ?_⟩
      by_contra hshort
      refine (C13_raid6_read_fails_with_member alg (f := MdArray.pureFn (MdArray.memberAnswer disks)) ()
        hb hlt hk (c := f.chunkSize) (fun _ m bs hbs => ?_)).1 block hq
      exfalso
      unfold MdArray.pureFn MdArray.memberAnswer at hbs
      simp only at hbs
      rw [if_neg (by rw [length_zeros]; exact Nat.lt_irrefl 512), hsec, g2] at hbs
      simp only at hbs
      split at hbs
      · cases hbs
      split at hbs
      · cases hbs
      · exact hshort (by omega)
    let members : Nat → Disk := fun k => (disks k).getD ⟨512, 0, []⟩
    have hrel : FaithfulRead (MdArray.pureFn (MdArray.memberAnswer disks)) (fun d s => (members d).sector s)
        f.deviceCount (b / (f.chunkSize * (f.deviceCount - 2)) * f.chunkSize + b % f.chunkSize) := by
      intro _ d buf hdn hbuf
      rw [hsec]
      obtain ⟨x, kk, -, g2, -, g4, g5⟩ := hmem d hdn
      have hm : members d = kk := by show (disks d).getD _ = kk; rw [g2]; rfl
      have hl := MdArray.sector_length g5
      simp only [hm]
      refine ⟨hl, .inl ?_⟩
      show MdArray.memberAnswer disks d _ buf = _
      unfold MdArray.memberAnswer
      rw [if_neg (by omega), g2]
      simp only
      rw [if_neg (by omega), if_neg (by omega), MdArray.overwrite_full (by rw [hl, hbuf])]
    obtain ⟨row, hrow, -⟩ := raid6Row_get (s := b / f.chunkSize / (f.deviceCount - 2)) h3 hL
    obtain ⟨hcons, d, g1, g2⟩ := C12_raid6_read_checks_parity hL hb hlt hrow hrel hq
    rw [hsec] at hcons g2
    refine ⟨h3, hc, fun k hk => ?_, fun row' hrow' => ?_, row, d, hrow, g1, by rw [g2]⟩
    · obtain ⟨x, kk, g1, g2, g3, -, g5⟩ := hmem k hk
      exact ⟨x, kk, g1, g2, g3, g5⟩
    · rw [hrow] at hrow'
      cases hrow'
      exact hcons

/-- C115, the data: if the devices answer as disks with any content, or fail, then what is returned is moreover what the
member in the place of the data has in its sector there, and P of that sector is the XOR of the data of all members. -/
theorem C115_content {F : Prop} {dev : BlockDev W D} {G : W → Prop} {Is : D → Disk → Prop} (hd : DevSpec F dev G Is)
    {ord : IterOrder} (hord : ord.Valid) (devices : List (MdDevice D)) (hdisks : ∀ x ∈ devices, ∃ k, Is x.device k)
    (hn : ∀ d ∈ devices, ∀ s, d.superblock = .superblock s → s.raidDeviceCount < U32)
    (b : Nat) (hb : b < U64) (buf : Bytes) (w : W) (hG : G w) (v : Nat × Bytes)
    (h : ((MdArray.dev dev).readBlock b buf (w, MdArray.open ord devices)).2 = .ok v) :
    ∃ L n c size members, Agreed devices L n c size ∧ 3 ≤ n ∧ 0 < c ∧
      (∀ k, k < n → ∃ x, SoleClaim devices x k ∧ Is x.device (members k) ∧
        (b / c / (n - 2) * c + b % c) * 512 + 512 ≤ (members k).content.length) ∧
      StripeSound L n c members b ∧
      ∃ row d, raid6Row L n (b / c / (n - 2)) = some row ∧ row[d]? = some (.D (b / c % (n - 2))) ∧
        v = (512, (members d).sector (b / c / (n - 2) * c + b % c)) := by
  obtain ⟨f, alg, hf, halg, -⟩ := MdArray.readBlock_ok h
  obtain ⟨L, hL⟩ := alg.layout_exists
  obtain ⟨hag, hlt⟩ := MdArray.inUse_agreed hf halg hL hn
  have hex : ∀ d, ∃ k : Option Disk, ((MdArray.open ord devices).devices.get d = none ∧ k = none) ∨
      ∃ x k', (MdArray.open ord devices).devices.get d = some x ∧ k = some k' ∧ Is x.device k' := by
    intro d
    cases hg : (MdArray.open ord devices).devices.get d with
    | none => exact ⟨none, .inl ⟨rfl, rfl⟩⟩
    | some x =>
      obtain ⟨l₁, l₂, he, -⟩ := (C24_active_iff hord devices d x).1 hg
      obtain ⟨k, hk⟩ := hdisks x (by rw [he]; simp)
      exact ⟨some k, .inr ⟨x, k, rfl, rfl, hk⟩⟩
  obtain ⟨disks, h1⟩ := Classical.axiomOfChoice hex
  obtain ⟨h3, hc, hmem, hsound, row, d, g1, g2, g3⟩ :=
    MdArray.read_from_disks hd (disks := disks) h1 hf halg hL hlt hb hG h
  refine ⟨L, _, _, _, _, hag, h3, hc, fun k hk => ?_, hsound, row, d, g1, g2, g3⟩
  obtain ⟨x, kk, e1, e2, e3, e4⟩ := hmem k hk
  rw [e2]
  exact ⟨x, (C24_active_iff hord devices k x).1 e1, e3, e4⟩

theorem SM.bind_ok_inv {S α β : Type} {m : SM S α} {k : α → SM S β} {s : S} {b : β}
    (h : ((m >>= k) s).2 = .ok b) : ∃ s' a, m s = (s', .ok a) ∧ (k a s').2 = .ok b := by
  rcases hm : m s with ⟨s', r⟩
  cases r with
  | ok a => rw [SM.bind_ok (h := hm)] at h; exact ⟨s', a, rfl, h⟩
  | err e => rw [SM.bind_err (h := hm)] at h; cases h
  | panic => rw [SM.bind_panic (h := hm)] at h; cases h

/-- A reader gives bytes only if its device gives the block. -/
theorem Reader.read_needs {dev : BlockDev W D} {buf : Bytes} {w : W} {r : Reader D} {k : Nat} {out : Bytes}
    (h : (Reader.read dev buf (w, r)).2 = .ok (k, out)) (hk : k ≠ 0) :
    ∃ w' bs v, (dev.readBlock r.blockPos (zeros bs) (w', r.device)).2 = .ok v := by
  obtain ⟨s1, a1, e1, h⟩ := SM.bind_ok_inv h
  cases e1
  obtain ⟨s2, n, e2, h⟩ := SM.bind_ok_inv h
  have hs2 : s2.2 = r := by have := congrArg (fun x => x.1.2) e2; exact this.symm
  simp only at h
  split at h
  · cases h
    exact absurd rfl hk
  obtain ⟨s3, bs, e3, h⟩ := SM.bind_ok_inv h
  have hs3 : s3.2 = r := by have := congrArg (fun x => x.1.2) e3; exact this.symm.trans hs2
  obtain ⟨s4, v, e4, h⟩ := SM.bind_ok_inv h
  obtain ⟨w3, r3⟩ := s3
  cases hs3
  exact ⟨w3, bs, v, congrArg Prod.snd e4⟩

/-- C115, filesystems: an ext4 filesystem can be opened only on an array from a complete set of disks that agree. -/
theorem C115_ext4 [Build] {ord : IterOrder} (hord : ord.Valid) (dev : BlockDev W D) (devices : List (MdDevice D))
    (hn : ∀ d ∈ devices, ∀ s, d.superblock = .superblock s → s.raidDeviceCount < U32) (w : W)
    (fs : Ext4Fs (Reader (ArrayDef D)))
    (h : (Ext4Fs.open (Reader.streamDev (MdArray.dev dev)) (Reader.new (MdArray.open ord devices)) w).2 = .ok fs) :
    ∃ L n c size, Agreed devices L n c size ∧ 3 ≤ n ∧ 0 < c ∧ ∀ k, k < n → ∃ x, SoleClaim devices x k := by
  have h : ∃ a1, (Ext4Fs.openBody (Reader.streamDev (MdArray.dev dev))
      (w, Reader.new (MdArray.open ord devices))).2 = .ok a1 := by
    rcases hm : Ext4Fs.openBody (Reader.streamDev (MdArray.dev dev)) (w, Reader.new (MdArray.open ord devices)) with
      ⟨s', r⟩
    unfold Ext4Fs.open SM.withLocal at h
    cases r with
    | ok a => exact ⟨a, rfl⟩
    | err e => rw [SM.bind_err (h := hm)] at h; cases h
    | panic => rw [SM.bind_panic (h := hm)] at h; cases h
  obtain ⟨a1, h⟩ := h
  unfold Ext4Fs.openBody at h
  obtain ⟨s2, a2, e2, h⟩ := SM.bind_ok_inv h
  have hs2 : s2 = (w, { device := MdArray.open ord devices, blockPos := 2, bytePos := 0 }) := by
    have := congrArg Prod.fst e2
    exact this.symm
  subst hs2
  obtain ⟨s3, sb, e3, -⟩ := SM.bind_ok_inv h
  obtain ⟨s4, buf, e4, -⟩ := SM.bind_ok_inv (congrArg Prod.snd e3)
  have h4 := congrArg Prod.snd e4
  unfold readExact at h4
  rw [show (zeros ext4SbLayout.size).length = 1023 + 1 from length_zeros _] at h4
  unfold readExactLoop at h4
  rw [if_neg (fun h => by have := congrArg List.length h; rw [length_zeros] at this; cases this)] at h4
  obtain ⟨s5, ⟨k, out⟩, e5, h5⟩ := SM.bind_ok_inv h4
  simp only at h5
  split at h5
  · cases h5
  rename_i hk
  obtain ⟨w', bs, v, hv⟩ := Reader.read_needs (congrArg Prod.snd e5) hk
  exact C115_complete hord dev devices hn 2 (by decide) _ w' v hv

end

/-- Case for C115: the four in-memory members, of which sector 3 of the array is read. -/
theorem C115_case {ord : IterOrder} (hord : ord.Valid) :
    (∀ d ∈ sevens, ∀ s, d.superblock = .superblock s → s.raidDeviceCount < U32) ∧
    (∀ x ∈ sevens, ∃ k, InMemory.IsDisk x.device k) ∧
    ((MdArray.dev InMemory.dev).readBlock 3 (zeros 512) ((), MdArray.open ord sevens)).2 =
      .ok (512, List.replicate 512 7) := by
  refine ⟨fun d hd s hs => ?_, sevens_readable.disk, ?_⟩
  · obtain ⟨s', hs', -, h, -⟩ := sevens_readable.superblocks.2 d hd
    rw [hs'] at hs
    cases hs
    rw [h]
    decide
  · have h := C16_array_device_partial InMemory.devSpec hord (L := 2) rfl sevens_readable sevens_set
    obtain ⟨-, -, h | h⟩ := h.readBlock (w := ()) trivial ⟨rfl, rfl⟩ 3 (zeros 512) (by decide) (length_zeros _)
    · rw [h]
      simp only [List.drop_replicate, List.take_replicate]
      rfl
    · exact h.1.elim

end MdRecover
