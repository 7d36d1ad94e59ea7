import Verif.Lemmas.Front
import Verif.Props.Salvage

/-! C128: what lies in front of a block that cannot be read is read. -/

namespace MdRecover
open MdSpec Fixture

section
variable [Build]

/-- C128: on a device parts of which cannot be read, a program that reads a file until it ends or a call fails obtains
a part of the file from its beginning on, and as many blocks of it as can be read in front of the first one that
cannot; it is told that it has all only if it has, and if all can be read.  What has to be readable is what C101 needs
to come to the file. -/
theorem C128_front {W D : Type} {bad : Nat → Prop} {lim : Nat → Nat} {dev : StreamDev W D} {G : W → Prop}
    {Is : D → Bytes → Prop} {At : W → D → Nat → Prop} (hv : PatchyVolume bad lim dev G Is At) {c : Bytes}
    (hop : Ext4Openable c) (hl : c.length < 2 ^ 57) (hlim : c.length ≤ lim c.length) (w : W) (hG : G w) (d : D)
    (hI : Is d c) (names : List Bytes) (n : Nat) (content : Bytes) (hn : Leads c CleanName 2 names n)
    (hf : FileAt c n content) (hway : WayIntact bad c names n) :
    ∃ N q e, (∀ rounds, N ≤ rounds → (readFrontPath dev rounds d names w).2 = .ok (some (q, e))) ∧
      q <+: content ∧ (e = true → q = content) ∧
      (∀ m, FrontIntact bad c n m → content.take (m * blockSizeOf (sbOf c)) <+: q) ∧
      ((∀ m, FrontIntact bad c n m) → e = true) := by
  have hc : c.length < U64 := by omega
  have ha := hv.agree hc hlim
  have ho := patched_or dev At c
  have hI' : (fun d c' => c' = c ∧ Is d c) d c := ⟨rfl, hI⟩
  obtain ⟨w', fs, h1, hG', hopd⟩ := open_opened ha.perfect hG hI' hop hl
  have hb : TableChecked c := .inr (by have := hop.fits; omega)
  rw [← ha.openFs hG hI' hb hway.fs] at h1
  obtain ⟨w2, fs2, N1, hG2, ho2, h2⟩ := followFront_leads ha hc hn hway.directories hG' hopd
  obtain ⟨N2, s', q, e, h3⟩ := followFront_file ha ho hc hG2 ho2 hf hway.inode hway.nodes
  refine ⟨N1 + N2, q, e, fun rounds hr => ?_, (h3 N2 (Nat.le_refl _)).2⟩
  rw [readFrontPath, SM.bind_ok (h := h1)]
  show (followFront dev rounds names 2 (w', fs)).2 = _
  rw [h2 rounds (by omega), (h3 rounds (by omega)).1]

/-- C128, on a RAID6 array (as in C101): members with unreadable blocks, and with damage, in each sector on one member
at most. -/
theorem C128_array {W D : Type} {dev : BlockDev W D} {G : W → Prop} {Is : D → Disk → (Nat → Prop) → Prop}
    (hd : PatchyDev dev G Is) {ord : IterOrder} (hord : ord.Valid) {L n c size : Nat} {alg : Raid6Algorithm}
    {good members : Nat → Disk} {unreadable : Nat → Nat → Prop} {devices : List (MdDevice D)} {content : Bytes}
    (hL : Raid6Algorithm.fromLayout L = some alg)
    (hr : ReadableSet (fun d k => ∃ u, Is d k u) alg n c size members devices)
    (hu : ∀ d, d < n → ∀ x, SoleClaim devices x d → Is x.device (members d) (unreadable d))
    (hset : Raid6Set L n c size good content) (hdam : OneDamaged n size good members)
    (hop : Ext4Openable content) (hl : content.length < 2 ^ 57) (w : W) (hG : G w) (names : List Bytes) (i : Nat)
    (b : Bytes) (hn : Leads content CleanName 2 names i) (hf : FileAt content i b) :
    let bad := fun x => Affected L n c good members (x / 512) ∨ StripeUnreadable n c members unreadable (x / 512)
    WayIntact bad content names i →
    ∃ N q e, (∀ rounds, N ≤ rounds → (readFrontPath (Reader.streamDev (MdArray.dev dev)) rounds
        (Reader.new (MdArray.open ord devices)) names w).2 = .ok (some (q, e))) ∧
      q <+: b ∧ (e = true → q = b) ∧
      (∀ m, FrontIntact bad content i m → b.take (m * blockSizeOf (sbOf content)) <+: q) ∧
      ((∀ m, FrontIntact bad content i m) → e = true) := by
  intro bad hway
  have ha := C101_array hd hord hL hr hu hset hdam
  exact C128_front (Reader.patchyVolume ha ⟨512, size * (n - 2), content⟩ _) hop hl (by simp only [noLimit]; omega) w hG
    _ ⟨rfl, 0, Reader.at_new (ha.wf ⟨rfl, rfl, rfl⟩) ⟨rfl, rfl, rfl⟩⟩ names i b hn hf hway

end

namespace MkfsLemmas
open Mkfs
variable {k : Form} {t : List Node} {c tail : Bytes} (hc : c = volume k t ++ tail) (hf : Fits k t)
include hc hf

/-- No extent tree has nodes in blocks. -/
theorem nodesIntact_volume {bad : Nat → Prop} {i : Nat} (hi : i < t.length) : NodesIntact bad c (i + 2) := by
  have hti : t[i]? = some t[i] := List.getElem?_eq_getElem hi
  obtain ⟨-, -, -, -, -, hr⟩ := inode_volume hc hf i _ hti
  obtain ⟨-, h2, -, -⟩ := root_values (start k t i) (blocks k t[i]) (hf.sizes _ (List.mem_of_getElem? hti))
  intro node j hnode hj hfit hd
  have : node = extentRoot (start k t i) (blocks k t[i]) := by
    rw [hr] at hnode
    clear hd hj hfit
    induction hnode with
    | root => rfl
    | child node j _ hd _ _ _ ih =>
      rw [ih] at hd
      exact absurd h2 hd
  subst this
  exact absurd h2 hd

theorem frontIntact_volume {bad : Nat → Prop} {i m : Nat} (hi : i < t.length)
    (hb : ∀ x, start k t i * bs k ≤ x → x < (start k t i + m) * bs k → ¬ bad x) : FrontIntact bad c (i + 2) m := by
  have hti : t[i]? = some t[i] := List.getElem?_eq_getElem hi
  obtain ⟨b1, -⟩ := blocks_volume hc hf i _ hti
  rw [FrontIntact, blockSize_volume hc hf]
  intro xs hxs x hx y h1 h2 _
  obtain rfl := contiguous_unique hxs b1
  rw [← List.map_take, List.take_range] at hx
  obtain ⟨q, hq, rfl⟩ := List.mem_map.1 hx
  rw [List.mem_range] at hq
  refine hb y (Nat.le_trans (Nat.mul_le_mul_right _ (by omega)) h1) ?_
  have : (start k t i + q + 1) * bs k ≤ (start k t i + m) * bs k := Nat.mul_le_mul_right _ (by omega)
  rw [Nat.add_mul _ 1, Nat.one_mul] at this
  omega

theorem wayIntact_volume {bad : Nat → Prop} (hh : HeadIntact bad k t) {dirs : List Bytes} {name : Bytes}
    (hb : BodiesIntact bad k t dirs) {i : Nat} (hi : i < t.length) : WayIntact bad c (dirs ++ [name]) (i + 2) where
  fs := fsIntact_volume hc hf hh
  directories := by
    intro front nm rest n heq hle
    obtain ⟨rest', rfl⟩ : ∃ rest', dirs = front ++ rest' := by
      obtain ⟨r, h⟩ | ⟨r, h⟩ := List.append_eq_append_iff.1 heq |>.imp id id
      · rcases h with ⟨h1, h2⟩
        cases r with
        | nil => exact ⟨[], by rw [h1]; simp⟩
        | cons a r => cases r <;> simp at h2
      · exact ⟨r, h.1⟩
    exact (pathIntact_volume hc hf hh hb).2 front rest' n rfl hle
  inode := slotIntact_volume hc hf hh hi
  nodes := nodesIntact_volume hc hf hi

end MkfsLemmas

section
open Mkfs
variable [Build]

/-- C128, a file that was written: on a device with a volume written from a table of files (C123), some bytes of which
cannot be read, the program obtains the first `m` blocks of the file, if they can be read, and what is in front of
the files and the directories on the way. -/
theorem C128_written (k : Mkfs.Form) (t : List Node) (hf : Fits k t) (rest : Bytes)
    (hl : (volume k t ++ rest).length < 2 ^ 57) {W D : Type} {bad : Nat → Prop} {lim : Nat → Nat}
    {dev : StreamDev W D} {G : W → Prop} {Is : D → Bytes → Prop} {At : W → D → Nat → Prop}
    (hv : PatchyVolume bad lim dev G Is At)
    (hlim : (volume k t ++ rest).length ≤ lim (volume k t ++ rest).length) (hh : HeadIntact bad k t)
    (w : W) (d : D) (hG : G w) (hI : Is d (volume k t ++ rest)) (dirs : List Bytes) (name b : Bytes) (i : Nat)
    (hb : BodiesIntact bad k t dirs) (hat : atPath t 0 (dirs ++ [name]) = .content b)
    (hi : (placesOn t 0 (dirs ++ [name])).getLast? = some i) :
    ∃ N q e, (∀ rounds, N ≤ rounds → (readFrontPath dev rounds d (dirs ++ [name]) w).2 = .ok (some (q, e))) ∧
      q <+: b ∧ (e = true → q = b) ∧
      ∀ m, (∀ x, start k t i * bs k ≤ x → x < (start k t i + m) * bs k → ¬ bad x) → b.take (m * bs k) <+: q := by
  have hs := MkfsLemmas.says_volume (c := volume k t ++ rest) rfl hf (dirs ++ [name])
  rw [hat] at hs
  cases hs with
  | content n _ hle hfile =>
    obtain ⟨j, pre, rfl, hj, hpl⟩ := MkfsLemmas.places_leads rfl hf hle rfl hf.root []
    rw [List.append_nil] at hpl
    rw [hpl, show placesOn t j [] = [j] from rfl, List.getLast?_concat] at hi
    cases hi
    obtain ⟨N, q, e, h1, h2, h3, h4, -⟩ := C128_front hv (MkfsLemmas.openable_volume rfl hf) hl hlim w hG d hI
      (dirs ++ [name]) _ b hle hfile (MkfsLemmas.wayIntact_volume rfl hf hh hb hj)
    refine ⟨N, q, e, h1, h2, h3, fun m hm => ?_⟩
    have := h4 m (MkfsLemmas.frontIntact_volume rfl hf hj hm)
    rwa [MkfsLemmas.blockSize_volume rfl hf] at this

/-- C128, one sector: on a disk with blocks of 512 bytes one block cannot be read, in the `m`th block of a file.  The
`m` blocks in front of it are read. -/
theorem C128_one (t : List Node) (hf : Fits 0 t) (dirs : List Bytes) (name b : Bytes) (i m : Nat)
    (hat : atPath t 0 (dirs ++ [name]) = .content b) (hi : (placesOn t 0 (dirs ++ [name])).getLast? = some i)
    (hti : t[i]? = some (.file b)) (hm : m < blocks 0 (.file b)) (hnot : i ∉ placesOn t 0 dirs) :
    ∃ N q e, (∀ rounds, N ≤ rounds → (readFrontPath (Reader.streamDev (flawed fun x =>
        decide (x = (start 0 t i + m) * 2))) rounds
        (Reader.new (InMemory.new (volume 0 t) 512)) (dirs ++ [name]) ()).2 = .ok (some (q, e))) ∧
      q <+: b ∧ (e = true → q = b) ∧ b.take (m * 1024) <+: q := by
  have hbs : bs 0 = 1024 := rfl
  have hlen : (volume 0 t).length = total 0 t * 1024 := by rw [MkfsLemmas.length_volume hf.sizes, hbs]
  have htot := hf.total
  have hl : (volume 0 t ++ []).length < 2 ^ 57 := by
    rw [List.append_nil, hlen]
    omega
  have hpd := flawed_patchy fun x => decide (x = (start 0 t i + m) * 2)
  have hq : total 0 t * 1024 / 512 = total 0 t * 2 := by omega
  have hd : InMemory.IsDisk (InMemory.new (volume 0 t) 512) ⟨512, total 0 t * 2, volume 0 t⟩ := by
    refine ⟨show 0 < 512 by decide, show 512 < U32 by decide, ?_, ?_⟩
    · show (volume 0 t).length < U64
      rw [hlen]
      show _ < 2 ^ 64
      omega
    · show _ = Disk.mk 512 ((volume 0 t).length / 512) ((volume 0 t).take ((volume 0 t).length / 512 * 512))
      rw [hlen, hq]
      congr 1
      exact (List.take_of_length_le (by rw [hlen]; omega)).symm
  have hsi := MkfsLemmas.start_succ (k := 0) hti
  have h := C128_written 0 t hf [] hl
    (Reader.patchyVolume hpd ⟨512, total 0 t * 2, volume 0 t⟩ (fun x => decide (x = (start 0 t i + m) * 2) = true)) (by
      rw [List.append_nil, hlen]
      show _ ≤ U64
      omega) (by
      intro x hx h3
      have h3 : x / 512 = (start 0 t i + m) * 2 := of_decide_eq_true h3
      have := MkfsLemmas.start_mono 0 t (Nat.zero_le i)
      rw [hbs] at hx
      have h0 : start 0 t 0 = firstData 0 + 2 + tableBlocks 0 t := rfl
      omega) () (Reader.new (InMemory.new (volume 0 t) 512)) trivial (by
      rw [List.append_nil]
      exact ⟨rfl, 0, Reader.at_new (InMemory.devSpec.wf hd) ⟨hd, rfl⟩⟩) dirs name b i (by
      intro j hj nd htj x h1 h2 h3
      have h3 : x / 512 = (start 0 t i + m) * 2 := of_decide_eq_true h3
      have hne : j ≠ i := fun h => hnot (h ▸ hj)
      rw [hbs] at h1 h2
      have h4 := MkfsLemmas.start_succ (k := 0) htj
      rcases Nat.lt_or_ge j i with hlt | hge
      · have := MkfsLemmas.start_mono 0 t (show j + 1 ≤ i by omega)
        omega
      · have := MkfsLemmas.start_mono 0 t (show i + 1 ≤ j by omega)
        omega) hat hi
  obtain ⟨N, q, e, h1, h2, h3, h4⟩ := h
  refine ⟨N, q, e, h1, h2, h3, ?_⟩
  have := h4 m fun x h5 h6 h7 => by
    have h7 : x / 512 = (start 0 t i + m) * 2 := of_decide_eq_true h7
    rw [hbs] at h6
    omega
  rwa [hbs] at this

/-- C128, a case: the tree of C125, with one sector of the file "d/g" unreadable.  Its blocks in front of that sector
are read. -/
theorem C128_case (b b' : Bytes) (hb : b.length ≤ 2 ^ 24) (hb' : b'.length ≤ 2 ^ 24) (m : Nat)
    (hm : m < blocks 0 (.file b')) :
    ∃ N q e, (∀ rounds, N ≤ rounds → (readFrontPath (Reader.streamDev (flawed fun x =>
        decide (x = (start 0 ((caseTree b b').rows 0) 4 + m) * 2))) rounds
        (Reader.new (InMemory.new (volume 0 ((caseTree b b').rows 0)) 512)) [[100], [103]] ()).2 =
          .ok (some (q, e))) ∧
      q <+: b' ∧ (e = true → q = b') ∧ b'.take (m * 1024) <+: q := by
  have hf := caseTree_fits b b' hb hb'
  have ht := caseTree_rows b b'
  generalize (caseTree b b').rows 0 = t at hf ht
  have a1 : atPath t 0 [[100], [103]] = .content b' := by rw [ht]; rfl
  have p1 : placesOn t 0 [[100], [103]] = [0, 3, 4] := by rw [ht]; rfl
  have p2 : placesOn t 0 [[100]] = [0, 3] := by rw [ht]; rfl
  have h4 : t[4]? = some (.file b') := by rw [ht]; rfl
  clear ht
  exact C128_one t hf [[100]] [103] b' 4 m a1 (by rw [List.singleton_append, p1]; rfl) h4 hm (by rw [p2]; decide)

end
end MdRecover
