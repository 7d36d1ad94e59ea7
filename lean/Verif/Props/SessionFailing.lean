import Verif.Lemmas.SessionFailing
import Verif.Props.ArrayDamage

/-! C133: a program that goes on after failures. -/

namespace MdRecover
open MdSpec Fixture
variable [Build]

section
variable {W1 D1 W2 D2 : Type} {F : Prop} {dev1 : StreamDev W1 D1} {G1 : W1 → Prop}
  {Is1 : D1 → Bytes → Prop} {At1 : W1 → D1 → Nat → Prop} {dev2 : StreamDev W2 D2} {G2 : W2 → Prop}
  {Is2 : D2 → Bytes → Prop} {At2 : W2 → D2 → Nat → Prop} {lim1 lim2 : Nat → Nat}

/-- The states after calls none of which failed. -/
theorem sessionEnd_related {c : Bytes} (h1 : SeekableVolume F lim1 dev1 G1 Is1 At1)
    (h2 : SeekableVolume False lim2 dev2 G2 Is2 At2) (hlim : Ext4Sim.Lims F lim1 lim2 c)
    (ops : List (Nat × SessionCall)) (hops : ∀ x ∈ ops, x.2.wellTyped) :
    ∀ {s1 : W1 × List (Handle D1)} {s2 : W2 × List (Handle D2)}, Ext4Sim.Pr G1 G2 Is1 Is2 c s1 s2 →
      (∀ e, .error e ∉ sessionRun dev1 s1 ops) →
      Ext4Sim.Pr G1 G2 Is1 Is2 c (sessionEnd dev1 s1 ops) (sessionEnd dev2 s2 ops) := by
  induction ops with
  | nil => exact fun h _ => h
  | cons x ops ih =>
    intro s1 s2 hs hn
    rcases Ext4Sim.sessionStep h1 h2 hlim x.1 (hops _ List.mem_cons_self) hs with h | ⟨-, e, he⟩
    · exact ih (fun x h => hops x (List.mem_cons_of_mem _ h)) h.2 fun e he => hn e (List.mem_cons_of_mem _ he)
    · exact absurd (by rw [← he]; exact List.mem_cons_self) (hn e)

/-- C133, a failure on one handle does not disturb the others: a device that may fail at any time, and one with the
same content that does not fail.  A program has made calls, none with an error, and so has handles.  It makes any
further calls, and goes on after errors.  On each handle it sees what a program sees on the other device that makes
the calls on that handle only, up to the first error on that same handle. -/
theorem C133_others (h1 : SeekableVolume F lim1 dev1 G1 Is1 At1)
    (h2 : SeekableVolume False lim2 dev2 G2 Is2 At2) (c : Bytes) (w1 : W1) (w2 : W2) (d1 : D1) (d2 : D2)
    (hw1 : G1 w1) (hw2 : G2 w2) (hd1 : Is1 d1 c) (hd2 : Is2 d2 c)
    (hlim : lim1 c.length = lim2 c.length ∨ (F ∧ lim1 c.length ≤ lim2 c.length))
    (before ops : List (Nat × SessionCall)) (hb : ∀ x ∈ before, x.2.wellTyped) (hops : ∀ x ∈ ops, x.2.wellTyped)
    (hn : ∀ e, .error e ∉ sessionRun dev1 (w1, [.device d1]) before) (j : Nat)
    (hj : j < (sessionEnd dev1 (w1, [.device d1]) before).2.length) :
    let o1 := outcomesOf j ops (sessionRun dev1 (sessionEnd dev1 (w1, [.device d1]) before) ops)
    let o2 := sessionRun dev2 (sessionEnd dev2 (w2, [.device d2]) before) (ops.filter fun x => x.1 = j)
    o1 = o2 ∨ (F ∧ ∃ k e, o1.take k = o2.take k ∧ o1[k]? = some (.error e)) := by
  have hs := sessionEnd_related h1 h2 hlim before hb (s1 := (w1, [.device d1])) (s2 := (w2, [.device d2]))
    ⟨⟨hw1, hw2⟩, .cons ⟨hd1, hd2⟩ .nil⟩ hn
  have ha := Ext4Sim.end_alive h1 h2 hlim hw2 before hb (s := (w1, [.device d1]))
    ⟨hw1, fun x hx => by rw [List.mem_singleton.mp hx]; exact ⟨.device d2, hd1, hd2⟩⟩
  rcases Ext4Sim.forall₂_get hs.2 j with ⟨hnone, -⟩ | ⟨x1, x2, k1, k2, hx⟩
  · rw [List.getElem?_eq_none_iff] at hnone
    omega
  · exact Ext4Sim.others h1 h2 hlim j ops hops ha hs.1.2 k1 k2 hx

/-- C133, devices and filesystems outlive their own failures: if the handle is a device or a filesystem, then every
call on it has the outcome it has on the other device, or gives an error, whatever failed before on any handle. -/
theorem C133_again (h1 : SeekableVolume F lim1 dev1 G1 Is1 At1)
    (h2 : SeekableVolume False lim2 dev2 G2 Is2 At2) (c : Bytes) (w1 : W1) (w2 : W2) (d1 : D1) (d2 : D2)
    (hw1 : G1 w1) (hw2 : G2 w2) (hd1 : Is1 d1 c) (hd2 : Is2 d2 c)
    (hlim : lim1 c.length = lim2 c.length ∨ (F ∧ lim1 c.length ≤ lim2 c.length))
    (before ops : List (Nat × SessionCall)) (hb : ∀ x ∈ before, x.2.wellTyped) (hops : ∀ x ∈ ops, x.2.wellTyped)
    (hn : ∀ e, .error e ∉ sessionRun dev1 (w1, [.device d1]) before) (j : Nat)
    (hj : ∃ x, (sessionEnd dev1 (w1, [.device d1]) before).2[j]? = some x ∧ x.lasting) :
    List.Forall₂ (fun a b => a = b ∨ (F ∧ ∃ e, a = .error e))
      (outcomesOf j ops (sessionRun dev1 (sessionEnd dev1 (w1, [.device d1]) before) ops))
      (sessionRun dev2 (sessionEnd dev2 (w2, [.device d2]) before) (ops.filter fun x => x.1 = j)) := by
  obtain ⟨x, k, hl⟩ := hj
  have hs := sessionEnd_related h1 h2 hlim before hb (s1 := (w1, [.device d1])) (s2 := (w2, [.device d2]))
    ⟨⟨hw1, hw2⟩, .cons ⟨hd1, hd2⟩ .nil⟩ hn
  have ha := Ext4Sim.end_alive h1 h2 hlim hw2 before hb (s := (w1, [.device d1]))
    ⟨hw1, fun x hx => by rw [List.mem_singleton.mp hx]; exact ⟨.device d2, hd1, hd2⟩⟩
  rcases Ext4Sim.forall₂_get hs.2 j with ⟨hnone, -⟩ | ⟨x1, x2, k1, k2, hx⟩
  · rw [k] at hnone
    cases hnone
  · rw [k] at k1
    cases k1
    exact Ext4Sim.again h1 h2 hlim j ops hops ha hs.1.2 k k2 hx hl

/-- C133, a new start is as good as the first: after any calls with any failures, a program that begins with a device
it has, and uses that and the handles it makes from then on, sees what a program sees that begins with the other
device, up to the first error from a failure. -/
theorem C133_fresh (h1 : SeekableVolume F lim1 dev1 G1 Is1 At1)
    (h2 : SeekableVolume False lim2 dev2 G2 Is2 At2) (c : Bytes) (w1 : W1) (w2 : W2) (d1 : D1) (d2 : D2)
    (hw1 : G1 w1) (hw2 : G2 w2) (hd1 : Is1 d1 c) (hd2 : Is2 d2 c)
    (hlim : lim1 c.length = lim2 c.length ∨ (F ∧ lim1 c.length ≤ lim2 c.length))
    (before ops : List (Nat × SessionCall)) (hb : ∀ x ∈ before, x.2.wellTyped) (hops : ∀ x ∈ ops, x.2.wellTyped)
    (i : Nat) (hi : ∃ d, (sessionEnd dev1 (w1, [.device d1]) before).2[i]? = some (.device d)) :
    let now := sessionEnd dev1 (w1, [.device d1]) before
    let o1 := sessionRun dev1 now (ops.map fun x => (renumber i now.2.length x.1, x.2))
    let o2 := sessionRun dev2 (w2, [.device d2]) ops
    o1 = o2 ∨ (F ∧ ∃ k e, o1.take k = o2.take k ∧ o1[k]? = some (.error e)) := by
  obtain ⟨d, k⟩ := hi
  have ha := Ext4Sim.end_alive h1 h2 hlim hw2 before hb (s := (w1, [.device d1]))
    ⟨hw1, fun x hx => by rw [List.mem_singleton.mp hx]; exact ⟨.device d2, hd1, hd2⟩⟩
  have hlt := (List.getElem?_eq_some_iff.mp k).1
  refine Ext4Sim.fresh h1 h2 hlim hlt ops hops (s1 := sessionEnd dev1 (w1, [.device d1]) before)
    (s2 := (w2, [.device d2])) ⟨ha.1, hw2⟩ Nat.one_pos rfl fun k' x2 hk => ?_
  cases k' with
  | zero =>
    cases hk
    obtain ⟨x2, hx⟩ := ha.2 _ (List.mem_of_getElem? k)
    refine ⟨.device d, k, ?_⟩
    cases x2 with
    | device d' => exact ⟨hx.1, hd2⟩
    | _ => exact hx.elim
  | succ k' => cases hk

/-- C133, when the failures have ended: after any calls with any failures, if the device does not fail from now on
(`Gr`), a program that begins anew with a device it has sees exactly what it would see without the failures before. -/
theorem C133_recovered {limr : Nat → Nat} {Gr : W1 → Prop} {Atr : W1 → D1 → Nat → Prop}
    (h1 : SeekableVolume True lim1 dev1 G1 Is1 At1) (hr : SeekableVolume False limr dev1 Gr Is1 Atr)
    (h2 : SeekableVolume False lim2 dev2 G2 Is2 At2) (c : Bytes) (w1 : W1) (w2 : W2) (d1 : D1) (d2 : D2)
    (hw1 : G1 w1) (hw2 : G2 w2) (hd1 : Is1 d1 c) (hd2 : Is2 d2 c)
    (hlim : lim1 c.length ≤ U64) (hlimr : limr c.length = lim2 c.length)
    (before ops : List (Nat × SessionCall)) (hb : ∀ x ∈ before, x.2.wellTyped) (hops : ∀ x ∈ ops, x.2.wellTyped)
    (hnow : Gr (sessionEnd dev1 (w1, [.device d1]) before).1)
    (i : Nat) (hi : ∃ d, (sessionEnd dev1 (w1, [.device d1]) before).2[i]? = some (.device d)) :
    let now := sessionEnd dev1 (w1, [.device d1]) before
    sessionRun dev1 now (ops.map fun x => (renumber i now.2.length x.1, x.2)) =
      sessionRun dev2 (w2, [.device d2]) ops := by
  obtain ⟨d, k⟩ := hi
  have ha := Ext4Sim.end_alive h1 InMemory.seekableVolume (.inr ⟨trivial, hlim⟩) (w2 := ()) trivial before hb
    (s := (w1, [.device d1]))
    ⟨hw1, fun x hx => by rw [List.mem_singleton.mp hx]; exact ⟨.device (InMemory.new c 1), hd1, rfl⟩⟩
  have hlt := (List.getElem?_eq_some_iff.mp k).1
  rcases Ext4Sim.fresh hr h2 (.inl hlimr) hlt ops hops (s1 := sessionEnd dev1 (w1, [.device d1]) before)
    (s2 := (w2, [.device d2])) ⟨hnow, hw2⟩ Nat.one_pos rfl (fun k' x2 hk => by
      cases k' with
      | zero =>
        cases hk
        obtain ⟨x2, hx⟩ := ha.2 _ (List.mem_of_getElem? k)
        refine ⟨.device d, k, ?_⟩
        cases x2 with
        | device d' => exact ⟨hx.1, hd2⟩
        | _ => exact hx.elim
      | succ k' => cases hk) with h | ⟨hF, -⟩
  · exact h
  · exact hF.elim

/-- The device a program begins with stays its handle 0. -/
theorem first_device {W D : Type} {dev : StreamDev W D} (ops : List (Nat × SessionCall)) :
    ∀ {s : W × List (Handle D)}, (∃ d, s.2[0]? = some (.device d)) →
      ∃ d, (sessionEnd dev s ops).2[0]? = some (.device d) := by
  induction ops with
  | nil => exact fun h => h
  | cons x ops ih =>
    rintro s ⟨d, hd⟩
    refine ih ?_
    by_cases hx : x.1 = 0
    · obtain ⟨-, h⟩ := Ext4Sim.step_of_call (dev := dev) (i := x.1) (call := x.2) (s := s) (by rw [hx]; exact hd)
      obtain ⟨d', e⟩ := deviceCall (dev := dev) x.2 d s.1
      rw [e, hx] at h
      exact ⟨d', by rw [hx]; exact h⟩
    · exact ⟨d, (sessionStep_other hx (List.getElem?_eq_some_iff.mp hd).1).trans hd⟩

end

/-- C133, on a RAID6 array: members that may fail at any time, damaged in each sector on one of them at most (C100).
The three claims, with an in-memory device that holds what was written. -/
theorem C133_array {W D : Type} {F : Prop} {dev : BlockDev W D} {G : W → Prop} {Is : D → Disk → Prop}
    (hd : DevSpec F dev G Is) {ord : IterOrder} (hord : ord.Valid) {L n c size : Nat} {alg : Raid6Algorithm}
    {good members : Nat → Disk} {content : Bytes} {devices : List (MdDevice D)}
    (hL : Raid6Algorithm.fromLayout L = some alg) (hr : ReadableSet Is alg n c size members devices)
    (hset : Raid6Set L n c size good content) (hdam : OneDamaged n size good members) (w : W) (hG : G w)
    (before ops : List (Nat × SessionCall)) (hb : ∀ x ∈ before, x.2.wellTyped) (hops : ∀ x ∈ ops, x.2.wellTyped) :
    let dev1 := Reader.streamDev (MdArray.dev dev)
    let start1 := (w, [Handle.device (Reader.new (MdArray.open ord devices))])
    let start2 := ((), [Handle.device (InMemory.new content 512)])
    let now := sessionEnd dev1 start1 before
    ((∀ e, .error e ∉ sessionRun dev1 start1 before) → ∀ j, j < now.2.length →
      let o1 := outcomesOf j ops (sessionRun dev1 now ops)
      let o2 := sessionRun InMemory.streamDev (sessionEnd InMemory.streamDev start2 before) (ops.filter fun x => x.1 = j)
      (o1 = o2 ∨ ∃ k e, o1.take k = o2.take k ∧ o1[k]? = some (.error e)) ∧
      ((∃ x, now.2[j]? = some x ∧ x.lasting) → List.Forall₂ (fun a b => a = b ∨ ∃ e, a = .error e) o1 o2)) ∧
    (let o1 := sessionRun dev1 now (ops.map fun x => (renumber 0 now.2.length x.1, x.2))
     let o2 := sessionRun InMemory.streamDev start2 ops
     o1 = o2 ∨ ∃ k e, o1.take k = o2.take k ∧ o1[k]? = some (.error e)) := by
  intro dev1 start1 start2 now
  have ha := C100_array_device hd hord hL hr hset hdam
  have h1 := Reader.seekableVolume ha ⟨512, size * (n - 2), content⟩
  refine ⟨fun hn j hj => ⟨?_, fun hl => ?_⟩, ?_⟩
  · rcases C133_others h1 InMemory.seekableVolume content w () _ (InMemory.new content 512) hG trivial
      ⟨rfl, 0, Reader.at_new (ha.wf ⟨rfl, rfl⟩) ⟨rfl, rfl⟩⟩ rfl (.inl rfl)
      before ops hb hops hn j hj with h | ⟨-, h⟩
    · exact .inl h
    · exact .inr h
  · refine (C133_again h1 InMemory.seekableVolume content w () _ (InMemory.new content 512) hG trivial
      ⟨rfl, 0, Reader.at_new (ha.wf ⟨rfl, rfl⟩) ⟨rfl, rfl⟩⟩ rfl (.inl rfl)
      before ops hb hops hn j hl).imp fun a b h => ?_
    rcases h with h | ⟨-, h⟩
    · exact .inl h
    · exact .inr h
  · rcases C133_fresh h1 InMemory.seekableVolume content w () _ (InMemory.new content 512) hG trivial
      ⟨rfl, 0, Reader.at_new (ha.wf ⟨rfl, rfl⟩) ⟨rfl, rfl⟩⟩ rfl (.inl rfl)
      before ops hb hops 0 (first_device before ⟨_, rfl⟩) with h | ⟨-, h⟩
    · exact .inl h
    · exact .inr h

/-! ## Cases -/

/-- A kernel that fails once, when the file is read for the first time, after the four reads before: two to mount, one
for each inode. -/
def failsOnce : Kernel :=
  ⟨fun _ => 77, [.upTo 4095, .upTo 4095, .upTo 4095, .upTo 4095, .fail 5], fun _ => 2 ^ 40⟩

set_option maxRecDepth 100000 in
theorem failsOnce_before : sessionRun FileDev.streamDev (failsOnce, [.device ⟨5, smallFs, 512⟩]) (program.take 5) =
    [.done, .number 1024, .newFile, .number 2500, .newDirectory] := by
  rw [smallFs]
  decide +kernel +revert

set_option maxRecDepth 100000 in
/-- C133, a case: the file fails, the directory is read, the filesystem can be used; the file is opened again and read. -/
theorem C133_case : sessionRun FileDev.streamDev
      (sessionEnd FileDev.streamDev (failsOnce, [.device ⟨5, smallFs, 512⟩]) (program.take 5))
      [(2, .nextBlock 10 (zeros 1024)), (3, .nextEntry 10), (1, .openFile 3), (4, .nextBlock 10 (zeros 1024))] =
    [.error (.os 5), .entry (some ⟨[2, 0, 0, 0, 12, 0, 1, 2, 46, 0, 0, 0]⟩), .newFile,
      .data 1024 ((smallFs.drop 8192).take 1024)] := by
  rw [smallFs]
  decide +kernel +revert

theorem C133_case_others (ops : List (Nat × SessionCall)) (hops : ∀ x ∈ ops, x.2.wellTyped) (j : Nat) (hj : j < 4) :
    let o1 := outcomesOf j ops (sessionRun FileDev.streamDev
      (sessionEnd FileDev.streamDev (failsOnce, [.device ⟨5, smallFs, 512⟩]) (program.take 5)) ops)
    let o2 := sessionRun InMemory.streamDev (sessionEnd InMemory.streamDev ((), [.device (InMemory.new smallFs 512)])
      (program.take 5)) (ops.filter fun x => x.1 = j)
    o1 = o2 ∨ (True ∧ ∃ k e, o1.take k = o2.take k ∧ o1[k]? = some (.error e)) := by
  refine C133_others FileDev.seekableVolume_honest InMemory.seekableVolume smallFs failsOnce () ⟨5, smallFs, 512⟩
    (InMemory.new smallFs 512) trivial trivial rfl rfl (.inl rfl) (program.take 5) ops
    (fun x h => program_wellTyped x (List.mem_of_mem_take h)) hops (fun e h => ?_) j ?_
  · rw [failsOnce_before] at h
    simp at h
  · refine lt_of_lt_of_le hj (le_of_eq ?_)
    rw [smallFs]
    decide +kernel +revert

/-- How far a file can be positioned is not changed by a program. -/
theorem failsOnce_beyond (before : List (Nat × SessionCall)) (hb : ∀ x ∈ before, x.2.wellTyped) :
    ∀ i, (sessionEnd FileDev.streamDev (failsOnce, [.device ⟨5, smallFs, 512⟩]) before).1.beyond i = 2 ^ 40 := by
  have h1 : SeekableVolume True noLimit FileDev.streamDev (fun K : Kernel => ∀ i, K.beyond i = 2 ^ 40)
      (fun d c => d.content = c) (fun K d p => K.offset d.ofd = p) :=
    { FileDev.volumeSpec_aux True _ (fun _ _ h _ hb i => hb ▸ h i) (fun _ _ _ _ => trivial) with
      seekAccepted := fun {w d _} _ _ p _ _ => by
        rcases FileDev.seek_cases w d p with ⟨-, h⟩ | ⟨-, h⟩
        · exact .inl h
        · exact .inr ⟨trivial, _, h⟩
      seekRefused := fun _ _ p hp h => absurd h (by simp only [noLimit]; omega) }
  exact (Ext4Sim.end_alive h1 InMemory.seekableVolume (.inl rfl) (w2 := ()) trivial before hb (c := smallFs)
    (s := (failsOnce, [.device ⟨5, smallFs, 512⟩]))
    ⟨fun _ => rfl, fun x hx => by rw [List.mem_singleton.mp hx]; exact ⟨.device (InMemory.new smallFs 1), rfl, rfl⟩⟩).1

set_option maxRecDepth 100000 in
theorem failsOnce_over : (sessionEnd FileDev.streamDev (failsOnce, [.device ⟨5, smallFs, 512⟩])
    (program.take 5 ++ [(2, .nextBlock 10 (zeros 1024))])).1.schedule = [] := by
  rw [smallFs]
  decide +kernel +revert

/-- C133, a case: after the failure the whole program runs as on a device that never failed. -/
theorem C133_case_recovered :
    let before : List (Nat × SessionCall) := program.take 5 ++ [(2, .nextBlock 10 (zeros 1024))]
    let now := sessionEnd FileDev.streamDev (failsOnce, [.device ⟨5, smallFs, 512⟩]) before
    sessionRun FileDev.streamDev now (program.map fun x => (renumber 0 now.2.length x.1, x.2)) =
      sessionRun FileDev.streamDev (⟨fun _ => 0, [], fun _ => 2 ^ 40⟩, [.device ⟨0, smallFs, 4096⟩]) program := by
  have hb : ∀ x ∈ program.take 5 ++ [(2, SessionCall.nextBlock 10 (zeros 1024))], x.2.wellTyped := by
    intro x hx
    rcases List.mem_append.mp hx with h | h
    · exact program_wellTyped x (List.mem_of_mem_take h)
    · rw [List.mem_singleton.mp h]
      simp [SessionCall.wellTyped]
  exact C133_recovered FileDev.seekableVolume_honest
    (FileDev.seekableVolume_reliable (2 ^ 40)) (FileDev.seekableVolume_reliable (2 ^ 40)) smallFs _ _ _ _
    trivial ⟨by intro c h; simp at h, fun _ => rfl⟩ rfl rfl (le_refl _) rfl _ program hb program_wellTyped
    ⟨by intro c h; rw [failsOnce_over] at h; simp at h, failsOnce_beyond _ hb⟩ 0 (first_device _ ⟨_, rfl⟩)

end MdRecover
