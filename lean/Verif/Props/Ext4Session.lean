import Verif.Lemmas.Ext4SessionSim
import Verif.Lemmas.SeekableVolume
import Verif.Model.Native
import Verif.Props.ArrayRead
import Verif.Props.Ext4Inode
import Verif.Props.Ext4Fs

namespace MdRecover
open MdSpec Fixture
variable [Build]

section
variable {W1 D1 W2 D2 : Type} {F : Prop} {dev1 : StreamDev W1 D1} {G1 : W1 → Prop}
  {Is1 : D1 → Bytes → Prop} {At1 : W1 → D1 → Nat → Prop} {dev2 : StreamDev W2 D2} {G2 : W2 → Prop}
  {Is2 : D2 → Bytes → Prop} {At2 : W2 → D2 → Nat → Prop} {lim1 lim2 : Nat → Nat}

/-! ## C76 -/

/-- C76: two devices with the same content, of any kinds, that do not fail and accept the same positions.
Whatever a program does with the ext4 part of the API, it sees the same, whichever of the devices it is
given. -/
theorem C76_same_outcomes (h1 : SeekableVolume False lim1 dev1 G1 Is1 At1)
    (h2 : SeekableVolume False lim2 dev2 G2 Is2 At2) (c : Bytes) (w1 : W1) (w2 : W2) (d1 : D1) (d2 : D2)
    (hw1 : G1 w1) (hw2 : G2 w2) (hd1 : Is1 d1 c) (hd2 : Is2 d2 c)
    (hlim : lim1 c.length = lim2 c.length) (ops : List (Nat × SessionCall))
    (hops : ∀ x ∈ ops, x.2.wellTyped) :
    sessionRun dev1 (w1, [.device d1]) ops = sessionRun dev2 (w2, [.device d2]) ops := by
  rcases Ext4Sim.sessionRun (c := c) h1 h2 (.inl hlim) ops hops
    (s1 := (w1, [.device d1])) (s2 := (w2, [.device d2]))
    ⟨⟨hw1, hw2⟩, .cons ⟨hd1, hd2⟩ .nil⟩ with h | ⟨hF, -⟩
  · exact h
  · exact hF.elim

/-- C76: if the first device may fail at any time (and accepts no more positions), the program sees the
same up to the first error that comes from a failure or from a refused position. -/
theorem C76_failing_device (h1 : SeekableVolume F lim1 dev1 G1 Is1 At1)
    (h2 : SeekableVolume False lim2 dev2 G2 Is2 At2) (c : Bytes) (w1 : W1) (w2 : W2) (d1 : D1) (d2 : D2)
    (hw1 : G1 w1) (hw2 : G2 w2) (hd1 : Is1 d1 c) (hd2 : Is2 d2 c)
    (hlim : lim1 c.length = lim2 c.length ∨ (F ∧ lim1 c.length ≤ lim2 c.length))
    (ops : List (Nat × SessionCall))
    (hops : ∀ x ∈ ops, x.2.wellTyped) :
    sessionRun dev1 (w1, [.device d1]) ops = sessionRun dev2 (w2, [.device d2]) ops ∨
    (F ∧ ∃ k e, (sessionRun dev1 (w1, [.device d1]) ops).take k =
        (sessionRun dev2 (w2, [.device d2]) ops).take k ∧
      (sessionRun dev1 (w1, [.device d1]) ops)[k]? = some (.error e)) :=
  Ext4Sim.sessionRun (c := c) h1 h2 hlim ops hops ⟨⟨hw1, hw2⟩, .cons ⟨hd1, hd2⟩ .nil⟩

/-- The states of a program that has begun with a device. -/
theorem sessionEnd_self {c : Bytes} (h1 : SeekableVolume False lim1 dev1 G1 Is1 At1)
    (ops : List (Nat × SessionCall)) (hops : ∀ x ∈ ops, x.2.wellTyped) :
    ∀ {s : W1 × List (Handle D1)}, Ext4Sim.Pr G1 G1 Is1 Is1 c s s →
      Ext4Sim.Pr G1 G1 Is1 Is1 c (sessionEnd dev1 s ops) (sessionEnd dev1 s ops) := by
  induction ops with
  | nil => exact fun h => h
  | cons x ops ih =>
    intro s hs
    rcases Ext4Sim.sessionStep h1 h1 (.inl rfl) x.1 (hops _ List.mem_cons_self) hs with h | ⟨hF, -⟩
    · exact ih (fun x h => hops x (List.mem_cons_of_mem _ h)) h.2
    · exact hF.elim

theorem sessionStep_other {i j : Nat} (hij : i ≠ j) {call : SessionCall}
    {s : W1 × List (Handle D1)} (hj : j < s.2.length) :
    (sessionStep dev1 i call s).1.2[j]? = s.2[j]? := by
  unfold sessionStep
  cases hi : s.2[i]? with
  | none => rfl
  | some h =>
    simp only
    rcases handleCall dev1 call h (s.1, h) with ⟨⟨w, h'⟩, ⟨o, new⟩ | e | _⟩
    · show (s.2.set i h' ++ new)[j]? = _
      rw [List.getElem?_append_left (by rw [List.length_set]; exact hj), List.getElem?_set_ne hij]
    · exact List.getElem?_set_ne hij
    · exact List.getElem?_set_ne hij

theorem sessionStep_same {i : Nat} {call : SessionCall} {s1 s2 : W1 × List (Handle D1)}
    {c : Bytes} (h1 : SeekableVolume False lim1 dev1 G1 Is1 At1) (hc : call.wellTyped)
    (hw : Ext4Sim.Wd G1 G1 s1.1 s2.1) {x1 x2 : Handle D1} (k1 : s1.2[i]? = some x1)
    (k2 : s2.2[i]? = some x2) (hx : Ext4Sim.Hd Is1 Is1 c x1 x2) :
    (sessionStep dev1 i call s1).2 = (sessionStep dev1 i call s2).2 ∧
    ∃ y1 y2, (sessionStep dev1 i call s1).1.2[i]? = some y1 ∧
      (sessionStep dev1 i call s2).1.2[i]? = some y2 ∧ Ext4Sim.Hd Is1 Is1 c y1 y2 := by
  unfold sessionStep
  rw [k1, k2]
  simp only
  have l1 : i < s1.2.length := (List.getElem?_eq_some_iff.mp k1).1
  have l2 : i < s2.2.length := (List.getElem?_eq_some_iff.mp k2).1
  have hset : ∀ {l new : List (Handle D1)} (y : Handle D1), i < l.length →
      (l.set i y ++ new)[i]? = some y := by
    intro l new y hl
    rw [List.getElem?_append_left (by rw [List.length_set]; exact hl), List.getElem?_set_self hl]
  rcases Ext4Sim.handleCall h1 h1 (.inl rfl) hc hx (s1.1, x1) (s2.1, x2) ⟨hw, hx⟩ with
    ⟨⟨v1, y1⟩, ⟨v2, y2⟩, ⟨o1, n1⟩, ⟨o2, n2⟩, e1, e2, ho, hy⟩ | ⟨⟨v1, y1⟩, ⟨v2, y2⟩, e, e1, e2, hy⟩ |
    ⟨⟨v1, y1⟩, ⟨v2, y2⟩, e1, e2, hy⟩ | ⟨hF, -⟩
  · rw [e1, e2]
    exact ⟨ho.1, y1, y2, hset _ l1, hset _ l2, hy.2⟩
  · rw [e1, e2]
    exact ⟨rfl, y1, y2, List.getElem?_set_self l1, List.getElem?_set_self l2, hy.2⟩
  · rw [e1, e2]
    exact ⟨rfl, y1, y2, List.getElem?_set_self l1, List.getElem?_set_self l2, hy.2⟩
  · exact hF.elim

theorem handles_independent {c : Bytes} (h1 : SeekableVolume False lim1 dev1 G1 Is1 At1) (j : Nat)
    (ops : List (Nat × SessionCall)) (hops : ∀ x ∈ ops, x.2.wellTyped) :
    ∀ {s1 s2 : W1 × List (Handle D1)}, Ext4Sim.Pr G1 G1 Is1 Is1 c s1 s1 →
      Ext4Sim.Pr G1 G1 Is1 Is1 c s2 s2 → ∀ {x1 x2 : Handle D1}, s1.2[j]? = some x1 →
      s2.2[j]? = some x2 → Ext4Sim.Hd Is1 Is1 c x1 x2 →
      outcomesOf j ops (sessionRun dev1 s1 ops) =
        sessionRun dev1 s2 (ops.filter fun x => x.1 = j) := by
  induction ops with
  | nil => intros; rfl
  | cons x ops ih =>
    obtain ⟨i, call⟩ := x
    intro s1 s2 r1 r2 x1 x2 k1 k2 hx
    have hops' := fun x h => hops x (List.mem_cons_of_mem _ h)
    have hc : call.wellTyped := hops _ List.mem_cons_self
    have step : ∀ {s}, Ext4Sim.Pr G1 G1 Is1 Is1 c s s →
        Ext4Sim.Pr G1 G1 Is1 Is1 c (sessionStep dev1 i call s).1 (sessionStep dev1 i call s).1 := by
      intro s hs
      rcases Ext4Sim.sessionStep h1 h1 (.inl rfl) i hc hs with h | ⟨hF, -⟩
      · exact h.2
      · exact hF.elim
    by_cases hij : i = j
    · subst hij
      obtain ⟨ho, y1, y2, g1, g2, hy⟩ := sessionStep_same h1 hc ⟨r1.1.1, r2.1.1⟩ k1 k2 hx
      have := ih hops' (step r1) (step r2) g1 g2 hy
      rw [List.filter_cons_of_pos (by simp)]
      simp only [sessionRun, ← this]
      unfold outcomesOf
      rw [List.zip_cons_cons, List.filter_cons_of_pos (by simp), List.map_cons, ho]
    · have hj : j < s1.2.length := (List.getElem?_eq_some_iff.mp k1).1
      have g1 := (sessionStep_other (dev1 := dev1) (call := call) hij hj).trans k1
      have := ih hops' (step r1) r2 g1 k2 hx
      rw [List.filter_cons_of_neg (by simpa using hij), ← this]
      simp only [sessionRun]
      unfold outcomesOf
      rw [List.zip_cons_cons, List.filter_cons_of_neg (by simpa using hij)]

/-- C76: handles do not disturb each other.  After any calls, the calls on handle `j` among any further
calls see what they would see without the others, also if the device handles below share a cursor. -/
theorem C76_handles_independent (h1 : SeekableVolume False lim1 dev1 G1 Is1 At1) (c : Bytes) (w : W1)
    (d : D1) (hw : G1 w) (hd : Is1 d c) (before ops : List (Nat × SessionCall))
    (hb : ∀ x ∈ before, x.2.wellTyped) (hops : ∀ x ∈ ops, x.2.wellTyped) (j : Nat)
    (hj : j < (sessionEnd dev1 (w, [.device d]) before).2.length) :
    outcomesOf j ops (sessionRun dev1 (sessionEnd dev1 (w, [.device d]) before) ops) =
      sessionRun dev1 (sessionEnd dev1 (w, [.device d]) before) (ops.filter fun x => x.1 = j) := by
  have hs := sessionEnd_self (c := c) h1 before hb (s := (w, [.device d]))
    ⟨⟨hw, hw⟩, .cons ⟨hd, hd⟩ .nil⟩
  rcases Ext4Sim.forall₂_get hs.2 j with ⟨hn, -⟩ | ⟨x1, x2, k1, k2, hx⟩
  · rw [List.getElem?_eq_none_iff] at hn
    omega
  · rw [k1] at k2
    cases k2
    exact handles_independent h1 j ops hops hs hs k1 k1 hx

/-! ## C77 -/

/-- C77: the members of a RAID6 array do not fail, and their data areas begin at their first sector.
Whatever a program does with the ext4 filesystem on the assembled array, it sees what it would see on an
in-memory device that holds the content of the array. -/
theorem C77_ext4_on_array {W D : Type} {dev : BlockDev W D} {G : W → Prop} {Is : D → Disk → Prop}
    (hd : DevSpec False dev G Is) {ord : IterOrder} (hord : ord.Valid) {L n c size : Nat}
    {alg : Raid6Algorithm} {members : Nat → Disk} {content : Bytes} {devices : List (MdDevice D)}
    (hL : Raid6Algorithm.fromLayout L = some alg)
    (hr : ReadableSet Is alg n c size members devices)
    (hset : Raid6Set L n c size members content) (w : W) (hG : G w)
    (ops : List (Nat × SessionCall)) (hops : ∀ x ∈ ops, x.2.wellTyped) :
    sessionRun (Reader.streamDev (MdArray.dev dev))
        (w, [.device (Reader.new (MdArray.open ord devices))]) ops =
      sessionRun InMemory.streamDev ((), [.device (InMemory.new content 512)]) ops := by
  have ha := C16_array_device_partial hd hord hL hr hset
  exact C76_same_outcomes (Reader.seekableVolume ha ⟨512, size * (n - 2), content⟩)
    InMemory.seekableVolume content w () _ _ hG trivial
    ⟨rfl, 0, Reader.at_new (ha.wf ⟨rfl, rfl⟩) ⟨rfl, rfl⟩⟩ rfl rfl ops hops

/-- C77: if the members may fail at any time, the program sees the same up to the first error that comes
from a failure. -/
theorem C77_failing_members {W D : Type} {dev : BlockDev W D} {G : W → Prop} {Is : D → Disk → Prop}
    (hd : DevSpec True dev G Is) {ord : IterOrder} (hord : ord.Valid) {L n c size : Nat}
    {alg : Raid6Algorithm} {members : Nat → Disk} {content : Bytes} {devices : List (MdDevice D)}
    (hL : Raid6Algorithm.fromLayout L = some alg)
    (hr : ReadableSet Is alg n c size members devices)
    (hset : Raid6Set L n c size members content) (w : W) (hG : G w)
    (ops : List (Nat × SessionCall)) (hops : ∀ x ∈ ops, x.2.wellTyped) :
    sessionRun (Reader.streamDev (MdArray.dev dev))
        (w, [.device (Reader.new (MdArray.open ord devices))]) ops =
      sessionRun InMemory.streamDev ((), [.device (InMemory.new content 512)]) ops ∨
    ∃ k e, (sessionRun (Reader.streamDev (MdArray.dev dev))
        (w, [.device (Reader.new (MdArray.open ord devices))]) ops).take k =
        (sessionRun InMemory.streamDev ((), [.device (InMemory.new content 512)]) ops).take k ∧
      (sessionRun (Reader.streamDev (MdArray.dev dev))
        (w, [.device (Reader.new (MdArray.open ord devices))]) ops)[k]? = some (.error e) := by
  have ha := C16_array_device_partial hd hord hL hr hset
  rcases C76_failing_device (Reader.seekableVolume ha ⟨512, size * (n - 2), content⟩)
    InMemory.seekableVolume content w () _ (InMemory.new content 512) hG trivial
    ⟨rfl, 0, Reader.at_new (ha.wf ⟨rfl, rfl⟩) ⟨rfl, rfl⟩⟩ rfl (.inl rfl) ops hops with h | ⟨-, h⟩
  · exact .inl h
  · exact .inr h

end

/-! ## A concrete program -/

/-- A program that mounts the filesystem, opens inodes 3 and 2, and reads both by turns. -/
def program : List (Nat × SessionCall) :=
  [(0, .mount), (1, .blockSize), (1, .openFile 3), (2, .fileSize), (1, .openFile 2),
    (2, .nextBlock 10 (zeros 1024)), (3, .nextEntry 10), (2, .nextBlock 10 (zeros 1024)),
    (2, .nextBlock 10 (zeros 1024)), (2, .nextBlock 10 (zeros 1024)), (4, .clone), (1, .inode 9)]

set_option maxRecDepth 100000 in
theorem program_outcomes :
    (sessionRun InMemory.streamDev ((), [.device (InMemory.new smallFs 512)]) program) =
      [.done, .number 1024, .newFile, .number 2500, .newDirectory,
        .data 1024 ((smallFs.drop 8192).take 1024), .entry (some ⟨[2, 0, 0, 0, 12, 0, 1, 2, 46, 0, 0, 0]⟩),
        .data 1024 ((smallFs.drop 9216).take 1024), .data 452 ((smallFs.drop 10240).take 1024),
        .data 0 (zeros 1024), .noSuchHandle, .error .invalidInput] := by
  rw [smallFs]
  decide +kernel +revert

omit [Build] in
theorem program_wellTyped : ∀ x ∈ program, x.2.wellTyped := by
  intro x hx
  simp only [program, List.mem_cons, List.not_mem_nil, or_false] at hx
  rcases hx with rfl | rfl | rfl | rfl | rfl | rfl | rfl | rfl | rfl | rfl | rfl | rfl <;> trivial

/-- C76, a case: the same program on a file, with short reads, and on the same file opened elsewhere with
other blocks.  All handles of a file share one cursor. -/
theorem C76_case : sessionRun FileDev.streamDev
      (⟨fun _ => 77, [.upTo 100, .upTo 3, .upTo 1], fun _ => 2 ^ 40⟩, [.device ⟨5, smallFs, 512⟩])
      program =
    sessionRun FileDev.streamDev (⟨fun _ => 0, [], fun _ => 2 ^ 40⟩, [.device ⟨0, smallFs, 4096⟩])
      program :=
  C76_same_outcomes (FileDev.seekableVolume_reliable (2 ^ 40)) (FileDev.seekableVolume_reliable (2 ^ 40))
    smallFs _ _ _ _ ⟨by intro c h; simp at h, fun _ => rfl⟩ ⟨by intro c h; simp at h, fun _ => rfl⟩
    rfl rfl rfl _ program_wellTyped

/-- C76, a case: a position beyond the end is accepted or refused, according to the device. -/
theorem C76_case_beyond :
    sessionRun InMemory.streamDev ((), [.device (InMemory.new [1, 2] 1)]) [(0, .bytes 3 []), (0, .bytes 0 [0])] =
      [.bytes [], .bytes [1]] ∧
    sessionRun NativeDev.streamDev (⟨⟨fun _ => 0, [], fun _ => 0⟩, []⟩, [.device ⟨5, [1, 2], some 1⟩])
      [(0, .bytes 3 []), (0, .bytes 0 [0])] = [.error .invalidInput, .bytes [1]] := by
  decide +kernel +revert

/-- C76, a case: after opening both, the reads of the file are the same without the directory. -/
theorem C76_case_independent : outcomesOf 2 (program.drop 5) (sessionRun FileDev.streamDev
      (sessionEnd FileDev.streamDev
        (⟨fun _ => 77, [.upTo 100, .upTo 3, .upTo 1], fun _ => 2 ^ 40⟩, [.device ⟨5, smallFs, 512⟩]) (program.take 5))
      (program.drop 5)) =
    sessionRun FileDev.streamDev
      (sessionEnd FileDev.streamDev
        (⟨fun _ => 77, [.upTo 100, .upTo 3, .upTo 1], fun _ => 2 ^ 40⟩, [.device ⟨5, smallFs, 512⟩]) (program.take 5))
      (List.replicate 4 (2, .nextBlock 10 (zeros 1024))) := by
  refine C76_handles_independent (FileDev.seekableVolume_reliable (2 ^ 40)) smallFs _ _
    ⟨by intro c h; simp at h, fun _ => rfl⟩ rfl (program.take 5) (program.drop 5)
    (fun x h => program_wellTyped x (List.mem_of_mem_take h))
    (fun x h => program_wellTyped x (List.mem_of_mem_drop h)) 2 ?_
  rw [smallFs]
  decide +kernel +revert

/-- C77 for in-memory members: any content of the right length, spread over the members according to any
layout and geometry. -/
theorem C77_round_trip {ord : IterOrder} (hord : ord.Valid) {L n c size : Nat}
    {alg : Raid6Algorithm} {content : Bytes} {bs : Nat → Nat}
    (hL : Raid6Algorithm.fromLayout L = some alg) (hn : 3 ≤ n) (hn' : n ≤ 0xff00) (hc : 0 < c)
    (hdvd : c ∣ size) (hbytes : size * (n - 2) * 512 < U64)
    (hlen : content.length = size * (n - 2) * 512)
    (hbs : ∀ i, i < n → 0 < bs i ∧ bs i < U32 ∧ bs i ∣ size * 512)
    (ops : List (Nat × SessionCall)) (hops : ∀ x ∈ ops, x.2.wellTyped) :
    sessionRun (Reader.streamDev (MdArray.dev InMemory.dev))
        ((), [.device (Reader.new (MdArray.open ord
          (memMembers alg n c size 0 (encodeMember L n c size content) bs)))]) ops =
      sessionRun InMemory.streamDev ((), [.device (InMemory.new content 512)]) ops := by
  have hml := encodeMember_length (L := L) hn hc hdvd hlen
  have hsU : size * 512 < U64 :=
    MdArray.fit_total (Nat.le_mul_of_pos_right _ (by omega)) hbytes
  have hr := memMembers_readable (alg := alg) (c := c) (size := size) (offset := 0)
    (mem := encodeMember L n c size content) (bs := bs) (n := n) (by omega) hn' (fun i hi => by
      obtain ⟨h1, h2, h3⟩ := hbs i hi
      rw [hml]
      exact ⟨h1, h2, hsU, h3⟩)
  have hset := encode_set (L := L) hn (Nat.lt_of_le_of_lt hn' (by decide)) hc hdvd hbytes hlen
    (fun i => ⟨bs i, (encodeMember L n c size content i).length / bs i,
      encodeMember L n c size content i⟩) (fun i _ => List.prefix_refl _)
  exact C77_ext4_on_array InMemory.devSpec hord hL hr hset () trivial ops hops

/-- C77, a case: the filesystem spread over the four members of a RAID6 array with one-sector chunks. -/
theorem C77_case {ord : IterOrder} (hord : ord.Valid) :
    sessionRun (Reader.streamDev (MdArray.dev InMemory.dev))
      ((), [.device (Reader.new (MdArray.open ord
        (memMembers .leftSymmetric 4 1 13 0 (encodeMember 2 4 1 13 smallFs) (fun _ => 512))))])
      program =
      [.done, .number 1024, .newFile, .number 2500, .newDirectory,
        .data 1024 ((smallFs.drop 8192).take 1024), .entry (some ⟨[2, 0, 0, 0, 12, 0, 1, 2, 46, 0, 0, 0]⟩),
        .data 1024 ((smallFs.drop 9216).take 1024), .data 452 ((smallFs.drop 10240).take 1024),
        .data 0 (zeros 1024), .noSuchHandle, .error .invalidInput] := by
  rw [C77_round_trip hord (L := 2) rfl (by decide) (by decide) (by decide) ⟨13, rfl⟩ (by decide)
    smallFs_length (bs := fun _ => 512) (fun _ _ => ⟨by decide, by decide, Nat.dvd_mul_left _ _⟩) _
    program_wellTyped]
  exact program_outcomes

end MdRecover
