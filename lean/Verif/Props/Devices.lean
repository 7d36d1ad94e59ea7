import Verif.Lemmas.Devices
import Verif.Props.Reader

/-! C46-C50: seeking and errors of the reader, the in-memory device, file-backed devices. -/

namespace MdRecover
open MdSpec

/-- C46.  Over a device that never fails, with the reader at byte `pos`: a seek answers with the goal and
later reads start there, or, exactly when the goal is negative or not below 2^64, is rejected with
InvalidInput leaving the position unchanged. -/
theorem C46_seek {W D : Type} {dev : BlockDev W D} {G : W → Prop}
    {Is : D → Disk → Prop} (hd : DevSpec False dev G Is) {k : Disk} {r : Reader D} {pos : Nat}
    (hr : Reader.At Is k r pos) {w : W} (hG : G w) (t : SeekFrom)
    (ht : ∀ p, t = .start p → p < U64) :
    if 0 ≤ seekGoal k.content pos t ∧ seekGoal k.content pos t < (U64 : Int) then
      (Reader.seek dev t (w, r)).2 = .ok (seekGoal k.content pos t).toNat ∧
        Reader.At Is k (Reader.seek dev t (w, r)).1.2 (seekGoal k.content pos t).toNat
    else (Reader.seek dev t (w, r)).2 = .err .invalidInput ∧
      Reader.At Is k (Reader.seek dev t (w, r)).1.2 pos := by
  obtain ⟨w', r', hG', h⟩ := Reader.seek_spec hd hG hr t ht
  rcases h with ⟨hF, _⟩ | ⟨hbad, h, hr'⟩ | ⟨q, hq, hql, h, hr'⟩
  · exact hF.elim
  · rw [if_neg hbad, h]; exact ⟨rfl, hr'⟩
  · rw [if_pos (by omega), h, hq]; exact ⟨rfl, hr'⟩

/-- C46.  After a seek to a position at or past the end, reads return `Ok(0)` and leave the buffer. -/
theorem C46_read_past_end {W D : Type} {dev : BlockDev W D} {G : W → Prop}
    {Is : D → Disk → Prop} (hd : DevSpec False dev G Is) {k : Disk} {r : Reader D} {pos p : Nat}
    (hr : Reader.At Is k r pos) {w : W} (hG : G w) (hp : p < U64) (hend : k.content.length ≤ p)
    (buf : Bytes) :
    ((do let _ ← Reader.seek dev (.start p); Reader.read dev buf) (w, r)).2 = .ok (0, buf) := by
  obtain ⟨w', r', hG', h⟩ := Reader.seek_spec hd hG hr (.start p)
    (fun q hq => by cases hq; exact hp)
  rcases h with ⟨hF, _⟩ | ⟨hbad, _⟩ | ⟨q, hq, hql, h, hr'⟩
  · exact hF.elim
  · exact absurd ⟨by simp [seekGoal], by simp only [seekGoal]; omega⟩ hbad
  rw [SM.bind_ok (h := h)]
  have hpq : p = q := by simp only [seekGoal] at hq; omega
  subst hpq
  obtain ⟨w2, r2, _, h2⟩ := Reader.read_spec hd hG' hr' buf
  rcases h2 with ⟨hF, _⟩ | ⟨j, buf', p', h2, hsr, _⟩
  · exact hF.elim
  have hj : j = 0 := by
    rcases Nat.eq_zero_or_pos j with h | h
    · exact h
    · have := hsr.inside h; omega
  rw [h2, hsr.data, hj]
  simp

/-- C47.  The device may fail at any time.  Seek to `p`, then read any number of times: as long as all
reads failed, the first one that succeeds returns the bytes at `p`. -/
theorem C47_retry_after_errors {W D : Type} {dev : BlockDev W D} {G : W → Prop}
    {Is : D → Disk → Prop} (hd : DevSpec True dev G Is) {k : Disk} {d : D} (hk : Is d k)
    {w : W} (hG : G w) {p : Nat} (hp : p < U64) (failed : List Bytes) (buf : Bytes)
    {es : List ErrKind} {j : Nat} {buf' : Bytes}
    (hrun : (runReaderOps dev
        (.seek 0 (.start p) :: (failed.map (ReaderOp.read 0) ++ [.read 0 buf])) w
        [Reader.new d]).2.2 =
      .position p :: (es.map ReaderOut.error ++ [.data j buf'])) :
    buf'.take j = (k.content.drop p).take j ∧ j ≤ buf.length ∧
      (j = 0 → buf = [] ∨ k.content.length ≤ p) := by
  obtain ⟨ps, hs⟩ := C44_reader_is_stream hd hk hG
    (.seek 0 (.start p) :: (failed.map (ReaderOp.read 0) ++ [.read 0 buf])) (by
      intro op hop
      rcases List.mem_cons.mp hop with rfl | hop
      · exact hp
      rcases List.mem_append.mp hop with hop | hop
      · obtain ⟨b, _, rfl⟩ := List.mem_map.mp hop; trivial
      · rw [List.mem_singleton.mp hop]; trivial)
  rw [hrun] at hs
  have hlen : es.length = failed.length := by
    have : ∀ (os : List ReaderOp) (outs : List ReaderOut) ps ps',
        StreamRun True k.content ps os outs ps' → os.length = outs.length := by
      intro os
      induction os with
      | nil => intro outs ps ps' h; cases h; rfl
      | cons o os ih => intro outs ps ps' h; cases h with | cons h1 h2 => simp [ih _ _ _ h2]
    have := this _ _ _ _ hs
    simp at this
    omega
  cases hs with
  | cons hstep hrest =>
    have hps : ∃ q, q = p ∧ hrest = hrest := ⟨p, rfl, rfl⟩
    rename_i ps1
    have h1 : ps1 = [p] := by
      cases hstep with
      | seek hi hq hl =>
        simp
    subst h1
    clear hstep hps hrun
    induction failed generalizing es with
    | nil =>
      have : es = [] := List.eq_nil_of_length_eq_zero hlen
      subst this
      simp only [List.map_nil, List.nil_append] at hrest
      cases hrest with
      | cons hstep _ =>
        cases hstep with
        | read hi hsr =>
          simp at hi
          subst hi
          refine ⟨?_, hsr.le, hsr.zero⟩
          rw [hsr.data]
          rcases Nat.eq_zero_or_pos j with h | h
          · subst h; simp
          · have := hsr.inside h
            rw [List.take_append_of_le_length (by
              rw [List.length_take, List.length_drop]; omega), List.take_take]
            simp
    | cons b failed ih =>
      cases es with
      | nil => simp at hlen
      | cons e es =>
        simp only [List.map_cons, List.cons_append] at hrest
        cases hrest with
        | cons hstep hrest =>
          cases hstep with
          | fails _ => exact ih (by simpa using hlen) hrest

/-! In-memory device. -/

/-- Operations on the in-memory device used as a stream. -/
inductive MemOp where
  | read (buf : Bytes)
  | seek (t : SeekFrom)

/-- Executes stream operations on the in-memory device, collecting outcomes (`none` is a panic or an
error; `some b` the bytes read, `some []` for a seek) and positions before and after. -/
def runMemOps : List MemOp → InMemory → InMemory × List (Option Bytes × Nat × Nat)
  | [], d => (d, [])
  | .read buf :: ops, d =>
    let (d', r) := InMemory.read buf d
    let (d'', outs) := runMemOps ops d'
    (d'', ((match r with | .ok (k, b) => some (b.take k) | _ => none), d.pos, d'.pos) :: outs)
  | .seek t :: ops, d =>
    let (d', r) := InMemory.seek t d
    let (d'', outs) := runMemOps ops d'
    (d'', ((match r with | .ok _ => some [] | _ => none), d.pos, d'.pos) :: outs)

/-- What an operation at position `p` should deliver and where it should end: a read delivers
`mem[p..q]`, as much as fits in the buffer or is left; a seek goes to its goal moved into
`[0, mem.length]`. -/
def MemStep (mem : Bytes) (p : Nat) : MemOp → Option Bytes → Nat → Prop
  | .read buf, out, q =>
      out = some ((mem.drop p).take (q - p)) ∧ q = p + min buf.length (mem.length - p)
  | .seek t, out, q => out = some [] ∧ (q : Int) = max 0 (min (seekGoal mem p t) mem.length)

/-- C48.  Any sequence of reads and seeks on an in-memory device: no operation panics or fails, the
position stays within the memory, and every operation does what `MemStep` says. -/
theorem C48_in_memory_stream (mem : Bytes) (bs : Nat) (hm : mem.length < U64) (ops : List MemOp)
    (i : Nat) (op : MemOp) (out : Option Bytes) (p q : Nat) (hop : ops[i]? = some op)
    (hout : (runMemOps ops (InMemory.new mem bs)).2[i]? = some (out, p, q)) :
    p ≤ mem.length ∧ q ≤ mem.length ∧ MemStep mem p op out q := by
  have gen : ∀ (ops : List MemOp) (d : InMemory), d.mem = mem → d.pos ≤ mem.length →
      ∀ (i : Nat) (op : MemOp) (out : Option Bytes) (p q : Nat), ops[i]? = some op →
      (runMemOps ops d).2[i]? = some (out, p, q) →
      p ≤ mem.length ∧ q ≤ mem.length ∧ MemStep mem p op out q := by
    intro ops
    induction ops with
    | nil => intro d _ _ i op out p q h; simp at h
    | cons o ops ih =>
      intro d hd hp i op out p q hop hout
      cases o with
      | read buf =>
        have hr : InMemory.read buf d =
            ({ d with pos := d.pos + min buf.length (mem.length - d.pos) },
              .ok (min buf.length (mem.length - d.pos),
                overwrite buf (slice mem d.pos (min buf.length (mem.length - d.pos))))) := by
          simp only [InMemory.read, hd]
          rw [if_neg (by omega)]
        simp only [runMemOps, hr] at hout
        cases i with
        | zero =>
          simp only [List.getElem?_cons_zero, Option.some.injEq, Prod.mk.injEq] at hop hout
          obtain ⟨h1, rfl, rfl⟩ := hout
          subst hop
          have hsl : (slice mem d.pos (min buf.length (mem.length - d.pos))).length =
              min buf.length (mem.length - d.pos) := by
            rw [slice, List.length_take, List.length_drop]; omega
          refine ⟨hp, by omega, ?_, rfl⟩
          rw [← h1, Nat.add_sub_cancel_left]
          rw [overwrite, List.take_append_of_le_length (by omega),
            List.take_of_length_le (by omega), slice]
        | succ i =>
          simp only [List.getElem?_cons_succ] at hop hout
          exact ih _ (by exact hd) (by simp only; omega) i op out p q hop hout
      | seek t =>
        have hgoal : ∃ q : Nat, InMemory.seek t d = ({ d with pos := q }, .ok q) ∧
            (q : Int) = max 0 (min (seekGoal mem d.pos t) mem.length) := by
          refine ⟨_, rfl, ?_⟩
          cases t <;>
            simp only [InMemory.saturatingAddSigned, seekGoal, hd] <;> omega
        obtain ⟨q', hs, hq'⟩ := hgoal
        simp only [runMemOps, hs] at hout
        cases i with
        | zero =>
          simp only [List.getElem?_cons_zero, Option.some.injEq, Prod.mk.injEq] at hop hout
          obtain ⟨h1, rfl, rfl⟩ := hout
          subst hop
          exact ⟨hp, by omega, h1.symm, hq'⟩
        | succ i =>
          simp only [List.getElem?_cons_succ] at hop hout
          exact ih _ (by exact hd) (by simp only; omega) i op out p q hop hout
  exact gen ops (InMemory.new mem bs) rfl (Nat.zero_le _) i op out p q hop hout

example : (runMemOps [.seek (.start 2), .read [0, 0], .seek (.current (-9)), .read [0]]
    (InMemory.new [10, 11, 12, 13, 14] 512)).2 =
    [(some [], 0, 2), (some [12, 13], 2, 4), (some [], 4, 0), (some [10], 0, 1)] := by decide

/-- C49, the part that holds: with a buffer of exactly the block size, block `b` below the block count is
`mem[b*bs .. b*bs+bs]`; buffers that are too small are rejected. -/
theorem C49_in_memory_blocks_partial (mem : Bytes) (bs b : Nat) (buf : Bytes) (hbs : 0 < bs)
    (hm : mem.length < U64) :
    (InMemory.dev.blockCount (InMemory.new mem bs) ()).2 = .ok (mem.length / bs) ∧
    (b < mem.length / bs → buf.length = bs →
      (InMemory.dev.readBlock b buf ((), InMemory.new mem bs)).2 =
        .ok (bs, (mem.drop (b * bs)).take bs)) ∧
    (buf.length < bs →
      (InMemory.dev.readBlock b buf ((), InMemory.new mem bs)).2 = .err .invalidInput) := by
  refine ⟨?_, ?_, ?_⟩
  · simp only [InMemory.dev, SM.lift_apply, divP, InMemory.new]
    rw [if_neg (by omega)]
  · intro hb hbuf
    have := InMemory.readBlock_in_range (d := InMemory.new mem bs) hbs hm hb hbuf
    simp only [InMemory.dev]
    rw [this]
    rfl
  · intro hbuf
    simp only [InMemory.dev, InMemory.readBlock, InMemory.new]
    rw [if_pos hbuf]

/-- C49, the part that fails: for every in-memory device with a positive block size, reading a
block number at or past the block count (that does not overflow) panics, ... -/
theorem C49_out_of_range_panics (mem : Bytes) (bs b : Nat) (buf : Bytes) (hbs : 0 < bs)
    (hb : mem.length / bs ≤ b) (hfit : b * bs < U64) (hbuf : bs ≤ buf.length) :
    (InMemory.dev.readBlock b buf ((), InMemory.new mem bs)).2 = .panic := by
  have h1 : mem.length < (mem.length / bs + 1) * bs := by
    have := Nat.lt_div_mul_add (a := mem.length) hbs
    rw [Nat.add_mul, Nat.one_mul]; exact this
  have h2 : (mem.length / bs + 1) * bs ≤ (b + 1) * bs := Nat.mul_le_mul_right _ (by omega)
  rw [Nat.add_mul b, Nat.one_mul] at h2
  simp only [InMemory.dev, InMemory.readBlock, InMemory.new]
  rw [if_neg (by omega), bytePos, checkedMul64_pos hfit]
  simp only
  by_cases h : mem.length < b * bs
  · rw [if_pos h]
  · rw [if_neg h, if_pos (by omega)]

/-- ... and so does reading an existing block into a buffer larger than a block. -/
theorem C49_larger_buffer_panics (mem : Bytes) (bs b : Nat) (buf : Bytes) (hbs : 0 < bs)
    (hm : mem.length < U64) (hb : b < mem.length / bs) (hbuf : bs < buf.length) :
    (InMemory.dev.readBlock b buf ((), InMemory.new mem bs)).2 = .panic := by
  have h1 : (b + 1) * bs ≤ mem.length / bs * bs := Nat.mul_le_mul_right _ hb
  have h2 := Nat.div_mul_le_self mem.length bs
  rw [Nat.add_mul, Nat.one_mul] at h1
  simp only [InMemory.dev, InMemory.readBlock, InMemory.new]
  rw [if_neg (by omega), bytePos, checkedMul64_pos (by omega)]
  simp only
  rw [if_neg (by omega), if_neg (by omega), if_pos (by omega)]

example : (InMemory.dev.readBlock 1 [0, 0] ((), InMemory.new [1, 2, 3, 4, 5] 2)).2 = .ok (2, [3, 4])
    ∧ (InMemory.dev.readBlock 2 [0, 0] ((), InMemory.new [1, 2, 3, 4, 5] 2)).2 = .panic
    ∧ (InMemory.dev.readBlock 1 [0, 0, 0] ((), InMemory.new [1, 2, 3, 4, 5] 2)).2 = .panic := by
  decide

/-! File-backed devices. -/

/-- Operations through any of several handles on open files, in any interleaving. -/
inductive FileOp where
  | seek (h : Nat) (t : SeekFrom)
  | read (h : Nat) (buf : Bytes)
  | readBlock (h : Nat) (b : Nat) (buf : Bytes)
  | clone (h : Nat)

/-- Executes one operation; the outcome of a `readBlock` is returned. -/
def runFileOp (op : FileOp) (K : Kernel) (hs : List FileDev) :
    Kernel × List FileDev × Option (Res (Nat × Bytes)) :=
  match op with
  | .seek h t =>
    match hs[h]? with
    | none => (K, hs, none)
    | some d => ((FileDev.seekRaw t (K, d)).1.1, hs, none)
  | .read h buf =>
    match hs[h]? with
    | none => (K, hs, none)
    | some d => ((FileDev.readRaw buf (K, d)).1.1, hs, none)
  | .readBlock h b buf =>
    match hs[h]? with
    | none => (K, hs, none)
    | some d => ((FileDev.dev.readBlock b buf (K, d)).1.1, hs,
        some (FileDev.dev.readBlock b buf (K, d)).2)
  | .clone h =>
    match hs[h]? with
    | none => (K, hs, none)
    | some d =>
      match FileDev.dev.tryClone d K with
      | (K', .ok d') => (K', hs ++ [d'], none)
      | (K', _) => (K', hs, none)

/-- Executes a sequence of operations. -/
def runFileOps : List FileOp → Kernel → List FileDev → List (Option (Res (Nat × Bytes)))
  | [], _, _ => []
  | op :: ops, K, hs =>
    let (K', hs', o) := runFileOp op K hs
    o :: runFileOps ops K' hs'

/-- C50.  One file (content `file`, block size `bs`), opened once; any interleaving of seeks, reads, block
reads and clones through any of the handles, with any short reads and failures of the kernel.  Every block
read of a block below the block count, with a large enough buffer, delivers exactly that block of the
file, or an I/O error that the kernel had scheduled. -/
theorem C50_file_clones_do_not_interfere (file : Bytes) (bs : Nat) (hbs : 0 < bs)
    (hlen : file.length < U64) (K : Kernel) (ofd : Nat) (ops : List FileOp)
    (i h b : Nat) (buf : Bytes) (r : Res (Nat × Bytes))
    (hop : ops[i]? = some (.readBlock h b buf))
    (hr : (runFileOps ops K [⟨ofd, file, bs⟩])[i]? = some (some r))
    (hb : b < file.length / bs) (hbuf : bs ≤ buf.length) :
    r = .ok (bs, (file.drop (b * bs)).take bs ++ buf.drop bs) ∨
      ∃ c, r = .err (.os c) ∧ ReadEvent.fail c ∈ K.schedule := by
  have gen : ∀ (ops : List FileOp) (K1 : Kernel) (hs : List FileDev),
      K1.schedule ⊆ K.schedule → (∀ d ∈ hs, d = ⟨ofd, file, bs⟩) →
      ∀ i : Nat, ops[i]? = some (FileOp.readBlock h b buf) →
        (runFileOps ops K1 hs)[i]? = some (some r) →
        r = .ok (bs, (file.drop (b * bs)).take bs ++ buf.drop bs) ∨
          ∃ c, r = .err (.os c) ∧ ReadEvent.fail c ∈ K.schedule := by
    intro ops
    induction ops with
    | nil => intro _ _ _ _ i h; simp at h
    | cons op ops ih =>
      intro K1 hs hK hhs i hop hr
      have h1 : (b + 1) * bs ≤ file.length / bs * bs := Nat.mul_le_mul_right _ hb
      have h2 := Nat.div_mul_le_self file.length bs
      rw [Nat.add_mul, Nat.one_mul] at h1
      cases i with
      | zero =>
        simp only [List.getElem?_cons_zero, Option.some.injEq] at hop
        subst hop
        simp only [runFileOps, runFileOp] at hr
        cases hd : hs[h]? with
        | none => simp [hd] at hr
        | some d =>
          simp only [hd, List.getElem?_cons_zero, Option.some.injEq] at hr
          have := hhs d (List.mem_of_getElem? hd)
          subst this
          subst hr
          obtain ⟨K', hsub, hc⟩ := FileDev.readBlock_spec K1 ⟨ofd, file, bs⟩ b buf
            (by simp only; omega) hbuf
          simp only at hc
          simp only [FileDev.dev]
          rcases hc with ⟨c, hc, hcs⟩ | ⟨hlt, _, _⟩ | ⟨_, hc⟩
          · rw [hc]; exact .inr ⟨c, rfl, hK hcs⟩
          · omega
          · rw [hc]
            left
            simp only [overwrite, slice]
            rw [List.length_take, List.length_drop, Nat.min_eq_left (by omega)]
      | succ i =>
        simp only [List.getElem?_cons_succ, runFileOps] at hop hr
        refine ih _ _ ?_ ?_ i hop hr
        · cases op with
          | seek h t =>
            simp only [runFileOp]
            split
            · exact hK
            · rename_i d _
              have : (FileDev.seekRaw t (K1, d)).1.1.schedule = K1.schedule := by
                simp only [FileDev.seekRaw]
                split <;> split <;> rfl
              rw [this]; exact hK
          | read h buf =>
            simp only [runFileOp]
            split
            · exact hK
            · rename_i d _
              rcases FileDev.readRaw_spec buf K1 d with ⟨c, K', h, _, hsub⟩ |
                ⟨j, K', h, _, _, _, hsub, _⟩ <;> rw [h] <;> exact fun _ hx => hK (hsub hx)
          | readBlock h b' buf' =>
            simp only [runFileOp]
            split
            · exact hK
            · rename_i d _
              simp only [FileDev.dev]
              exact fun _ hx => hK (FileDev.readBlock_schedule K1 d b' buf' hx)
          | clone h =>
            simp only [runFileOp, FileDev.dev, SM.lift_apply]
            split <;> exact hK
        · cases op with
          | seek h t => simp only [runFileOp]; split <;> exact hhs
          | read h buf => simp only [runFileOp]; split <;> exact hhs
          | readBlock h b' buf' => simp only [runFileOp]; split <;> exact hhs
          | clone h =>
            simp only [runFileOp, FileDev.dev, SM.lift_apply]
            split
            · exact hhs
            · rename_i d hd
              intro x hx
              rcases List.mem_append.mp hx with hx | hx
              · exact hhs x hx
              · rw [List.mem_singleton.mp hx]
                exact hhs d (List.mem_of_getElem? hd)
  exact gen ops K _ (fun _ h => h) (fun d hd => by simpa using hd) i hop hr

/-- The place a seek in a file of `size` bytes asks for, standing at `cur`. -/
def _root_.MdSpec.fileTarget (size cur : Nat) : SeekFrom → Int
  | .start p => p
  | .fromEnd off => size + off
  | .current off => cur + off

/-- C50, seeking: a seek through a handle goes to the place asked for, counted from the start, the end or the
present position, and returns it; only the handles on the same opened file are moved, and all of them.  It
fails, and moves nothing, if the place is negative or farther beyond the end than the file may be positioned. -/
theorem C50_seek (t : SeekFrom) (K : Kernel) (d : FileDev) :
    (∀ p : Nat, fileTarget d.content.length (K.offset d.ofd) t = p → p ≤ d.content.length + K.beyond d.ofd →
      ∃ K', FileDev.seekRaw t (K, d) = ((K', d), .ok p) ∧ (∀ d' : FileDev, d'.ofd = d.ofd → K'.offset d'.ofd = p) ∧
        (∀ i, i ≠ d.ofd → K'.offset i = K.offset i) ∧ K'.schedule = K.schedule ∧ K'.beyond = K.beyond) ∧
    ((fileTarget d.content.length (K.offset d.ofd) t < 0 ∨
        (d.content.length + K.beyond d.ofd : Nat) < fileTarget d.content.length (K.offset d.ofd) t) →
      FileDev.seekRaw t (K, d) = ((K, d), .err .invalidInput)) := by
  constructor
  · intro p hp hle
    have hx : FileDev.seekRaw t (K, d) = (({ K with offset := fun i =>
        if i = d.ofd then (fileTarget d.content.length (K.offset d.ofd) t).toNat else K.offset i }, d),
        .ok (fileTarget d.content.length (K.offset d.ofd) t).toNat) := by
      unfold FileDev.seekRaw
      cases t <;> (simp only [fileTarget] at hp ⊢; rw [if_neg (by omega)])
    rw [hx, hp, Int.toNat_natCast]
    exact ⟨_, rfl, fun d' h => if_pos h, fun i h => if_neg h, rfl, rfl⟩
  · intro h
    unfold FileDev.seekRaw
    cases t <;> (simp only [fileTarget] at h ⊢; rw [if_pos h])

/-- Two bytes before the end of five, and before the beginning. -/
example : fileTarget 5 0 (.fromEnd (-2)) = (3 : Nat) ∧ fileTarget 5 1 (.current (-2)) < 0 := by decide
example : (FileDev.seekRaw (.fromEnd (-2)) (⟨fun _ => 0, [], fun _ => 0⟩, ⟨7, [1, 2, 3, 4, 5], 2⟩)).2 = .ok 3 := by decide

/-- A concrete interleaving with a clone, foreign seeks and short reads. -/
example : (runFileOps
    [.clone 0, .seek 1 (.start 3), .readBlock 0 1 [0, 0], .read 1 [0], .readBlock 1 0 [0, 0, 9]]
    ⟨fun _ => 0, [.upTo 0, .upTo 5], fun _ => 0⟩ [⟨7, [1, 2, 3, 4, 5], 2⟩])[4]? =
    some (some (.ok (2, [1, 2, 9]))) := by decide

/-- C44 for in-memory devices and for files with clones sharing a cursor, short reads and failures: the
device specification is met. -/
theorem C44_devices_meet_spec :
    DevSpec False InMemory.dev (fun _ => True) InMemory.IsDisk ∧
    DevSpec True FileDev.dev (fun _ => True) FileDev.IsDisk ∧
    DevSpec False FileDev.dev FileDev.NoFailures FileDev.IsDisk :=
  ⟨InMemory.devSpec, FileDev.devSpec_honest, FileDev.devSpec_reliable⟩

example : InMemory.IsDisk (InMemory.new [1, 2, 3, 4, 5] 2) ⟨2, 2, [1, 2, 3, 4]⟩ :=
  ⟨by decide, by decide, by decide, rfl⟩

/-- C44-C47 for five bytes in blocks of two, in memory, and in a file whose second read fails. -/
example := C44_reader_is_stream InMemory.devSpec (k := ⟨2, 2, [1, 2, 3, 4]⟩) (d := InMemory.new [1, 2, 3, 4, 5] 2)
  ⟨by decide, by decide, by decide, rfl⟩ (w := ()) trivial
  [.seek 0 (.start 1), .clone 0, .read 0 [0, 0], .read 1 [0]] (by
    intro op h; simp at h; rcases h with rfl | rfl | rfl | rfl <;> simp [ReaderOp.wellTyped])
example := C45_seek_read_exact InMemory.devSpec (k := ⟨2, 2, [1, 2, 3, 4]⟩)
  (Reader.at_new ⟨by decide, by decide, by decide, by decide⟩
    (d := InMemory.new [1, 2, 3, 4, 5] 2) ⟨by decide, by decide, by decide, rfl⟩) (w := ()) trivial 1 (by decide) [0, 0, 0]
example := C45_seek_read_exact_honest FileDev.devSpec_honest (k := ⟨2, 2, [1, 2, 3, 4]⟩)
  (Reader.at_new ⟨by decide, by decide, by decide, by decide⟩
    (d := (⟨7, [1, 2, 3, 4, 5], 2⟩ : FileDev)) ⟨by decide, by decide, by decide, rfl⟩)
  (w := ⟨fun _ => 0, [.upTo 0, .upTo 5], fun _ => 0⟩) trivial 1 (by decide) [0, 0] (b := [2, 3]) (by decide +kernel)
example := C46_seek InMemory.devSpec (k := ⟨2, 2, [1, 2, 3, 4]⟩)
  (Reader.at_new ⟨by decide, by decide, by decide, by decide⟩
    (d := InMemory.new [1, 2, 3, 4, 5] 2) ⟨by decide, by decide, by decide, rfl⟩) (w := ()) trivial (.fromEnd (-9)) (by simp)
example := C46_read_past_end InMemory.devSpec (k := ⟨2, 2, [1, 2, 3, 4]⟩) (p := 4)
  (Reader.at_new ⟨by decide, by decide, by decide, by decide⟩
    (d := InMemory.new [1, 2, 3, 4, 5] 2) ⟨by decide, by decide, by decide, rfl⟩) (w := ()) trivial (by decide)
  (by decide) [7, 7]
example := C47_retry_after_errors FileDev.devSpec_honest (k := ⟨2, 2, [1, 2, 3, 4]⟩)
  (d := (⟨7, [1, 2, 3, 4, 5], 2⟩ : FileDev)) ⟨by decide, by decide, by decide, rfl⟩
  (w := ⟨fun _ => 0, [.fail 5, .upTo 5], fun _ => 0⟩) trivial (p := 1) (by decide) [[0]] [0, 0] (es := [.os 5]) (j := 1)
  (buf' := [2, 0]) rfl
example := C48_in_memory_stream [10, 11, 12, 13, 14] 512 (by decide)
  [.seek (.start 2), .read [0, 0], .seek (.current (-9)), .read [0]] 1 (.read [0, 0]) (some [12, 13]) 2 4 rfl
  (by decide)
example := C49_in_memory_blocks_partial [1, 2, 3, 4, 5] 2 1 [0, 0] (by decide) (by decide)
example := C49_out_of_range_panics [1, 2, 3, 4, 5] 2 2 [0, 0] (by decide) (by decide) (by decide) (by decide)
example := C49_larger_buffer_panics [1, 2, 3, 4, 5] 2 1 [0, 0, 0] (by decide) (by decide) (by decide) (by decide)
example := C50_file_clones_do_not_interfere [1, 2, 3, 4, 5] 2 (by decide) (by decide)
  ⟨fun _ => 0, [.upTo 0, .upTo 5], fun _ => 0⟩ 7
  [.clone 0, .seek 1 (.start 3), .readBlock 0 1 [0, 0], .read 1 [0], .readBlock 1 0 [0, 0, 9]] 4 1 0 [0, 0, 9]
  (.ok (2, [1, 2, 9])) rfl (by decide) (by decide) (by decide)

end MdRecover
