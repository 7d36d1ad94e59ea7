import Verif.Lemmas.Rounds
import Verif.Lemmas.Endless
import Verif.Props.NoPanic

/-! C121: volumes on which every program comes to an end. -/

namespace MdRecover
open MdSpec Fixture

section
variable [Build] {W D : Type} {F : Prop} {dev : StreamDev W D} {G : W → Prop} {Is : D → Bytes → Prop}
  {At : W → D → Nat → Prop}

/-- C121: if nothing on the volume declares more than there is, and `R` rounds are enough for the trees of its files,
then every call of every program returns within `R` rounds, and without a panic, whatever calls were made before, on
whichever handles, and whichever calls to the device fail (`F`). -/
theorem C121_returns (hv : VolumeSpec F dev G Is At) (c : Bytes) (hc : c.length < U64) (hs : HoldsWhatItDeclares c)
    (R : Nat) (hR : EnoughRounds c R) (w : W) (d : D) (hG : G w) (hd : Is d c) (ops : List (Nat × SessionCall))
    (hops : ∀ x ∈ ops, x.2.wellTyped) (hg : ∀ x ∈ ops, x.2.given R) :
    SessionOut.running ∉ sessionRun dev (w, [.device d]) ops ∧
      SessionOut.panicked ∉ sessionRun dev (w, [.device d]) ops :=
  ⟨sessionRun_ends hv hc hs hR ops hops hg (w, [.device d]) hG
      (fun h hh => by cases List.mem_singleton.1 hh; exact hd) (fun h hh => by cases List.mem_singleton.1 hh; trivial),
    C117_no_panic hv c hc hs w d hG hd ops hops⟩

end

/-- A way from a node to one of its children. -/
def ChildOf (c : Bytes) (bs : Nat) (a b : Bytes) : Prop :=
  nodeDepth a ≠ 0 ∧ ∃ i, i < nodeEntries a ∧ BlockInside c bs (indexChild (nodeEntry a i)) ∧
    b = blockOf c bs (indexChild (nodeEntry a i))

theorem treeRounds_of_acc {c : Bytes} {bs : Nat} {node : Bytes} (h : Acc (fun b a => ChildOf c bs a b) node) :
    ∃ k, TreeRounds c bs node k := by
  induction h with
  | intro node _ ih =>
    by_cases hd : nodeDepth node = 0
    · exact ⟨_, .leaf node hd⟩
    · have hex : ∀ i, ∃ k, i < nodeEntries node → BlockInside c bs (indexChild (nodeEntry node i)) →
          TreeRounds c bs (blockOf c bs (indexChild (nodeEntry node i))) k := by
        intro i
        by_cases hi : i < nodeEntries node ∧ BlockInside c bs (indexChild (nodeEntry node i))
        · obtain ⟨k, hk⟩ := ih _ ⟨hd, i, hi.1, hi.2, rfl⟩
          exact ⟨k, fun _ _ => hk⟩
        · exact ⟨0, fun h1 h2 => absurd ⟨h1, h2⟩ hi⟩
      obtain ⟨k, hk⟩ := Classical.axiomOfChoice hex
      exact ⟨_, .branch node k hd hk⟩

theorem acc_of_treeRounds {c : Bytes} {bs : Nat} {node : Bytes} {k : Nat} (h : TreeRounds c bs node k) :
    Acc (fun b a => ChildOf c bs a b) node := by
  induction h with
  | leaf node hd => exact .intro _ fun b hb => absurd hd hb.1
  | branch node k hd _ ih =>
    refine .intro _ fun b hb => ?_
    obtain ⟨-, i, h1, h2, rfl⟩ := hb
    exact ih i h1 h2

/-- C121, when there is such a number of rounds: exactly if no file or directory of the volume has a tree in which one
comes from a node back to it. -/
theorem C121_bound_iff (c : Bytes) : (∃ R, EnoughRounds c R) ↔
    ∀ n, InodeSlot c n → HasTree c n → ¬ ∃ x, BlockInside c (blockSizeOf (sbOf c)) x ∧
      Relation.TransGen (ChildOf c (blockSizeOf (sbOf c))) (rootNode c n) (blockOf c (blockSizeOf (sbOf c)) x) ∧
      Relation.TransGen (ChildOf c (blockSizeOf (sbOf c))) (blockOf c (blockSizeOf (sbOf c)) x)
        (blockOf c (blockSizeOf (sbOf c)) x) := by
  constructor
  · rintro ⟨R, hR⟩ n hn ht ⟨x, -, h1, h2⟩
    obtain ⟨k, hk, -⟩ := hR n hn ht
    exact not_acc_of_circle h1 h2 (acc_of_treeRounds hk)
  · intro h
    have hex : ∀ n, ∃ k, InodeSlot c n → HasTree c n → TreeRounds c (blockSizeOf (sbOf c)) (rootNode c n) k := by
      intro n
      by_cases hn : InodeSlot c n ∧ HasTree c n
      · have hacc : Acc (fun b a => ChildOf c (blockSizeOf (sbOf c)) a b) (rootNode c n) := by
          by_contra ha
          exact h n hn.1 hn.2 (circle (Nat.mul_pos (by omega) (Nat.two_pow_pos _))
            (fun a b hab => by obtain ⟨-, i, -, h1, h2⟩ := hab; exact ⟨_, h1, h2⟩) ha)
        obtain ⟨k, hk⟩ := treeRounds_of_acc hacc
        exact ⟨k, fun _ _ => hk⟩
      · exact ⟨0, fun h1 h2 => absurd ⟨h1, h2⟩ hn⟩
    obtain ⟨k, hk⟩ := Classical.axiomOfChoice hex
    refine ⟨((List.range (le (sbOf c) 0 4 + 1)).map fun n => k n + sizeOf c n / blockSizeOf (sbOf c) + 3).sum,
      fun n hn ht => ⟨k n, hk n hn ht, ?_⟩⟩
    exact List.single_le_sum (fun _ _ => Nat.zero_le _) _
      (List.mem_map.2 ⟨n, List.mem_range.2 (by have := hn.le; omega), rfl⟩)

/-- C121, trees as the kernel makes them: if the depths of the nodes go down by one at each level, there is such a
number of rounds. -/
theorem C121_bound_leveled (c : Bytes)
    (h : ∀ n, InodeSlot c n → HasTree c n → ∃ d, Leveled c (blockSizeOf (sbOf c)) d (rootNode c n)) :
    ∃ R, EnoughRounds c R := by
  have key : ∀ d node, Leveled c (blockSizeOf (sbOf c)) d node →
      Acc (fun b a => ChildOf c (blockSizeOf (sbOf c)) a b) node := by
    intro d
    induction d with
    | zero => exact fun node hn => .intro _ fun b hb => absurd hn.1 hb.1
    | succ d ih =>
      refine fun node hn => .intro _ fun b hb => ?_
      obtain ⟨-, i, h1, h2, rfl⟩ := hb
      exact ih _ (hn.2.2 i h1 h2)
  refine (C121_bound_iff c).2 fun n hn ht hx => ?_
  obtain ⟨d, hd⟩ := h n hn ht
  obtain ⟨x, -, h1, h2⟩ := hx
  exact not_acc_of_circle h1 h2 (key d _ hd)

section
variable [Build]

/-- C121, on an assembled array whose members may fail at any call. -/
theorem C121_array {W D : Type} {F : Prop} {dev : BlockDev W D} {G : W → Prop} {Is : D → Disk → Prop}
    (hd : DevSpec F dev G Is) {ord : IterOrder} (hord : ord.Valid) {L n c size : Nat}
    {alg : Raid6Algorithm} {members : Nat → Disk} {content : Bytes} {devices : List (MdDevice D)}
    (hL : Raid6Algorithm.fromLayout L = some alg)
    (hr : ReadableSet Is alg n c size members devices)
    (hset : Raid6Set L n c size members content) (hc : content.length < U64) (hs : HoldsWhatItDeclares content)
    (R : Nat) (hR : EnoughRounds content R)
    (w : W) (hG : G w) (ops : List (Nat × SessionCall)) (hops : ∀ x ∈ ops, x.2.wellTyped)
    (hg : ∀ x ∈ ops, x.2.given R) :
    SessionOut.running ∉ sessionRun (Reader.streamDev (MdArray.dev dev))
        (w, [.device (Reader.new (MdArray.open ord devices))]) ops ∧
      SessionOut.panicked ∉ sessionRun (Reader.streamDev (MdArray.dev dev))
        (w, [.device (Reader.new (MdArray.open ord devices))]) ops := by
  have ha := C16_array_device_partial hd hord hL hr hset
  exact C121_returns (Reader.volumeSpec ha ⟨512, size * (n - 2), content⟩) content hc hs R hR w _ hG
    ⟨rfl, 0, Reader.at_new (ha.wf ⟨rfl, rfl⟩) ⟨rfl, rfl⟩⟩ ops hops hg

end

/-! ## A concrete volume -/

/-- The small filesystem with three inodes, so that the inode whose tree has a cycle is out. -/
@[irreducible] def threeFs : Bytes := patch smallFs 1024 [3]

set_option maxRecDepth 100000 in
theorem threeFs_length : threeFs.length = 13312 := by rw [threeFs, smallFs]; decide +kernel

set_option maxRecDepth 100000 in
theorem threeFs_values : blockSizeOf (sbOf threeFs) = 1024 ∧ groupTableOf (sbOf threeFs) = 2048 ∧
    groupsOf (sbOf threeFs) = 1 ∧ le (sbOf threeFs) 0 4 = 3 ∧ le (sbOf threeFs) 0x20 4 ≠ 0 := by
  rw [threeFs, smallFs]; decide +kernel

set_option maxRecDepth 100000 in
theorem threeFs_inodes : ∀ n ∈ [1, 2, 3], (extraOf (inodeBytes threeFs n) ≤ 32 ∧
    128 + extraOf (inodeBytes threeFs n) ≤ (inodeBytes threeFs n).length) ∧
    sizeOf threeFs n ≤ 4096 ∧ 12 + 12 * nodeEntries (rootNode threeFs n) ≤ (rootNode threeFs n).length ∧
    nodeEntries (rootNode threeFs n) ≤ 1 ∧
    (nodeDepth (rootNode threeFs n) ≠ 0 → nodeEntries (rootNode threeFs n) = 1 ∧
      indexChild (nodeEntry (rootNode threeFs n) 0) = 6) := by
  rw [threeFs, smallFs]; decide +kernel

set_option maxRecDepth 100000 in
theorem threeFs_node : nodeDepth (blockOf threeFs 1024 6) = 0 ∧ nodeEntries (blockOf threeFs 1024 6) = 2 ∧
    12 + 12 * nodeEntries (blockOf threeFs 1024 6) ≤ (blockOf threeFs 1024 6).length := by
  rw [threeFs, smallFs]; decide +kernel

theorem threeFs_slots {n : Nat} (hn : InodeSlot threeFs n) : n ∈ [1, 2, 3] := by
  have h1 := hn.pos
  have h2 := hn.le
  rw [threeFs_values.2.2.2.1] at h2
  have : n = 1 ∨ n = 2 ∨ n = 3 := by omega
  simpa using this

/-- C121, a case: nothing on this volume declares more than there is. -/
theorem C121_case_holds : HoldsWhatItDeclares threeFs := by
  obtain ⟨v1, v2, v3, v4, v5⟩ := threeFs_values
  refine ⟨?_, fun n hn => (threeFs_inodes n (threeFs_slots hn)).1, ?_, ?_⟩
  · rintro ⟨-, -, h | ⟨-, h | h⟩⟩
    · exact v5 h
    · rw [v2] at h; exact absurd h (by decide)
    · rw [v3] at h; exact absurd h (by decide)
  · intro n hn _ node ht
    obtain ⟨-, -, h1, h2, h3⟩ := threeFs_inodes n (threeFs_slots hn)
    obtain ⟨n1, n2, n3⟩ := threeFs_node
    rw [v1] at ht
    have key : node = rootNode threeFs n ∨ node = blockOf threeFs 1024 6 := by
      induction ht with
      | root => exact .inl rfl
      | child node i _ hd hi _ _ ih =>
        rcases ih with rfl | rfl
        · obtain rfl : i = 0 := by omega
          rw [(h3 hd).2]
          exact .inr rfl
        · exact absurd n1 hd
    rcases key with rfl | rfl
    · exact h1
    · exact n3
  · intro n hn _
    have h1 := (threeFs_inodes n (threeFs_slots hn)).2.1
    rw [v1]
    exact h1.trans (by decide)

/-- C121, a case: 14 rounds are enough for it. -/
theorem C121_case_rounds : EnoughRounds threeFs 14 := by
  obtain ⟨v1, -⟩ := threeFs_values
  obtain ⟨n1, n2, -⟩ := threeFs_node
  intro n hn _
  obtain ⟨-, h0, -, h2, h3⟩ := threeFs_inodes n (threeFs_slots hn)
  rw [v1]
  have hdiv : sizeOf threeFs n / 1024 ≤ 4 := by omega
  by_cases hd : nodeDepth (rootNode threeFs n) = 0
  · exact ⟨_, .leaf _ hd, by omega⟩
  · obtain ⟨h4, h5⟩ := h3 hd
    refine ⟨_, .branch _ (fun _ => 5) hd fun i hi _ => ?_, ?_⟩
    · obtain rfl : i = 0 := by omega
      rw [h5]
      have := TreeRounds.leaf (c := threeFs) (bs := 1024) _ n1
      rwa [n2] at this
    · rw [h4]
      show 7 + _ + 3 ≤ 14
      omega

/-- C121, a case: whatever calls a program makes on this volume in a file, on a kernel that may fail at any call, each
of them returns within 14 rounds. -/
theorem C121_case [Build] (k : Kernel) (h : Nat) (bs : Nat) (ops : List (Nat × SessionCall))
    (hops : ∀ x ∈ ops, x.2.wellTyped) (hg : ∀ x ∈ ops, x.2.given 14) :
    SessionOut.running ∉ sessionRun FileDev.streamDev (k, [.device ⟨h, threeFs, bs⟩]) ops :=
  (C121_returns FileDev.volumeSpec_honest threeFs (by rw [threeFs_length]; decide) C121_case_holds 14 C121_case_rounds
    _ _ trivial rfl ops hops hg).1

set_option maxRecDepth 100000 in
/-- C121, rounds are counted tightly: on the small filesystem, where the first block of the file of inode 3 is behind
an index node and an extent, the first call needs three rounds. -/
theorem C121_case_few :
    sessionRun InMemory.streamDev ((), [.device (InMemory.new threeFs 512)])
      [(0, .mount), (1, .openFile 3), (2, .nextBlock 2 (zeros 1024)), (1, .openFile 3),
        (3, .nextBlock 3 (zeros 1024))] =
    [.done, .newFile, .running, .newFile, .data 1024 (blockOf threeFs 1024 8)] := by
  rw [threeFs, smallFs]
  decide +kernel +revert

end MdRecover
