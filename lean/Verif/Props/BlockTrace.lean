import Verif.Lemmas.BlockTrace
import Verif.Props.ArrayRead

/-! C107: what reading through the block reader and from an array asks the devices for. -/

namespace MdRecover
open MdSpec

/-- The blocks of `touched` are those that have one of the bytes `p`, ..., `p + n - 1`, in ascending order. -/
theorem C107_touched {p n bs : Nat} (hbs : 0 < bs) :
    (∀ b, b ∈ touched p n bs ↔ ∃ i, p ≤ i ∧ i < p + n ∧ i / bs = b) ∧ (touched p n bs).Pairwise (· < ·) := by
  constructor
  · intro b
    by_cases hn : n = 0
    · subst hn
      rw [touched_zero]
      simp only [List.not_mem_nil, false_iff]
      rintro ⟨i, h1, h2, -⟩
      omega
    rw [mem_touched hbs hn]
    have hm : (b + 1) * bs = b * bs + bs := Nat.succ_mul _ _
    constructor
    · rintro ⟨h1, h2⟩
      refine ⟨max p (b * bs), by omega, by omega, ?_⟩
      rw [Nat.div_eq_iff hbs]
      omega
    · rintro ⟨i, h1, h2, h3⟩
      rw [Nat.div_eq_iff hbs] at h3
      omega
  · unfold touched
    split
    · exact List.Pairwise.nil
    · exact List.pairwise_lt_range'

section
variable {W D N : Type} {F : Prop} {dev : BlockDev W D} {G : W → Prop} {Is : D → Disk → Prop}

/-- C107, the reader: seeking to byte `p` and filling a buffer asks the device for the blocks in which these bytes
are, one after another, once each, and for nothing else; if it fails, for some of them, from the first on. -/
theorem C107_reader (hd : DevSpec F dev G Is) {k : Disk} {x : N} {w : W × List (N × Nat)} {r : Reader (N × D)}
    {pos : Nat} (hG : G w.1) (hr : Reader.At (fun d k => d.1 = x ∧ Is d.2 k) k r pos) {p : Nat} (hp : p < U64) (buf : Bytes) :
    let m := (do
      let _ ← Reader.seek (namedDev N dev) (.start p)
      readExact (Reader.read (namedDev N dev)) buf : SM ((W × List (N × Nat)) × Reader (N × D)) Bytes)
    ∃ asked, (m (w, r)).1.1.2 = w.2 ++ asked.map (fun b => (x, b)) ∧ asked <+: touched p buf.length k.bs ∧
      ∀ b, (m (w, r)).2 = .ok b → asked = touched p buf.length k.bs := by
  intro m
  rcases h : m (w, r) with ⟨s, y⟩
  obtain ⟨asked, h1, h2, h3⟩ := Reader.seekRead_asked (namedDev_spec' (N := N) hd x) (namedDev_asks G Is x k) hG hr hp
    buf h
  have e : (touched p buf.length k.bs).flatMap (fun b => [(x, b)]) =
      (touched p buf.length k.bs).map (fun b => (x, b)) := by
    induction touched p buf.length k.bs with
    | nil => rfl
    | cons b l ih => rw [List.map_cons, List.flatMap_cons, ih]; rfl
  rw [e] at h2 h3
  obtain ⟨l, hl, rfl⟩ := List.prefix_map_iff.mp h2
  exact ⟨l, h1, hl, fun b hb => List.map_injective_iff.mpr (fun _ _ h => (Prod.mk.inj h).2) (h3 b hb)⟩

/-- C107, the array: reading sector `b` asks member after member for the blocks in which the sector is that belongs
to the same stripe as sector `b`, and for nothing else.  If it fails, it has asked for some of these, from the
first on. -/
theorem C107_sector (hd : DevSpec F dev G Is) {a : ArrayDef (N × D)} {alg : Raid6Algorithm} {n size c : Nat}
    (hf : MdArray.formatInUse a = some ⟨.raid6 alg, n, size, c⟩) {name : Nat → N} {bs : Nat → Nat}
    (hm : ∀ d, d < n → ∀ x, a.devices.get d = some x → x.device.1 = name d ∧ ∃ k, Is x.device.2 k ∧ k.bs = bs d)
    {b : Nat} (hb : b < U64) (hn : n < U32) (buf : Bytes) {w : W × List (N × Nat)} (hG : G w.1) :
    let r := (MdArray.dev (namedDev N dev)).readBlock b buf (w, a)
    ∃ asked, r.1.1.2 = w.2 ++ asked ∧ asked <+: stripeOf name bs n c b ∧
      ∀ x, r.2 = .ok x → asked = stripeOf name bs n c b :=
  MdArray.readBlock_asked hd hf hm hb hn buf hG

/-- C107: an array without a format that all devices agree on, or with one that is not supported, asks its members
for nothing. -/
theorem C107_unsupported {a : ArrayDef (N × D)}
    (hf : ∀ alg n size c, MdArray.formatInUse a ≠ some ⟨.raid6 alg, n, size, c⟩) (b : Nat) (buf : Bytes)
    (w : W × List (N × Nat)) : ((MdArray.dev (namedDev N dev)).readBlock b buf (w, a)).1.1 = w := by
  show (MdArray.readBlock (namedDev N dev) b buf (w, a)).1.1 = w
  unfold MdArray.readBlock
  split
  · rfl
  split
  · rfl
  rename_i f hf'
  rcases f with ⟨alg, n, size, c⟩
  cases alg with
  | raid6 alg => exact absurd hf' (hf alg n size c)
  | _ => rfl

/-- C107, bytes of an array: seeking to byte `p` of an opened array and filling a buffer asks, for one sector after
another, member after member for the blocks in which the sector of the stripe is.  Nothing is kept from one sector
to the next: what is needed for several sectors is asked for several times. -/
theorem C107_bytes (hd : DevSpec F dev G Is) {ord : IterOrder} (hord : ord.Valid) {L n c size : Nat}
    {alg : Raid6Algorithm} {members : Nat → Disk} {content : Bytes} {devices : List (MdDevice (N × D))}
    (hL : Raid6Algorithm.fromLayout L = some alg)
    (hr : ReadableSet (fun d k => Is d.2 k) alg n c size members devices) {name : Nat → N}
    (hname : ∀ d, d < n → ∀ x, SoleClaim devices x d → x.device.1 = name d)
    (hset : Raid6Set L n c size members content) {w : W × List (N × Nat)} (hG : G w.1) {p : Nat} (hp : p < U64)
    (buf : Bytes) :
    let m := (do
      let _ ← Reader.seek (MdArray.dev (namedDev N dev)) (.start p)
      readExact (Reader.read (MdArray.dev (namedDev N dev))) buf :
        SM ((W × List (N × Nat)) × Reader (ArrayDef (N × D))) Bytes)
    let r := m (w, Reader.new (MdArray.open ord devices))
    let full := (touched p buf.length 512).flatMap (stripeOf name (fun d => (members d).bs) n c)
    ∃ asked, r.1.1.2 = w.2 ++ asked ∧ asked <+: full ∧ ∀ b, r.2 = .ok b → asked = full := by
  intro m r full
  have hspec := C16_array_device_partial (namedDev_spec (N := N) hd) hord hL hr hset
  have ha : AsksFor (MdArray.dev (namedDev N dev)) Prod.snd (fun w => G w.1)
      (fun a k => a = MdArray.open ord devices ∧ k = (⟨512, size * (n - 2), content⟩ : Disk))
      ⟨512, size * (n - 2), content⟩ (stripeOf name (fun d => (members d).bs) n c) :=
    { blockSize := fun w d => rfl
      blockCount := fun w d => rfl
      tryClone := fun w d => rfl
      readBlock := by
        rintro w a hG ⟨rfl, -⟩ b buf hb -
        have hbU : b < U64 := by
          have h1 := hset.bytes_lt
          have hb' : b < size * (n - 2) := hb
          omega
        refine MdArray.readBlock_asked hd (hr.formatInUse ord) (fun d hdn x hx => ?_) hbU hset.devices_lt buf hG
        have hs : SoleClaim devices x d := (C24_active_iff hord devices d x).mp hx
        obtain ⟨y, hy, hi⟩ := hr.member d hdn
        have hy' := (C24_active_iff hord devices d y).mpr hy
        rw [hx] at hy'
        cases hy'
        exact ⟨hname d hdn x hs, _, hi, rfl⟩ }
  have hat : Reader.At (fun a k => a = MdArray.open ord devices ∧ k = (⟨512, size * (n - 2), content⟩ : Disk))
      ⟨512, size * (n - 2), content⟩ (Reader.new (MdArray.open ord devices)) 0 :=
    Reader.at_new (hspec.wf ⟨rfl, rfl⟩) ⟨rfl, rfl⟩
  rcases h : m (w, Reader.new (MdArray.open ord devices)) with ⟨s, y⟩
  have := Reader.seekRead_asked hspec ha hG hat hp buf h
  show ∃ asked, r.1.1.2 = w.2 ++ asked ∧ _
  have hrr : r = (s, y) := h
  rw [hrr]
  exact this

end

/-! ## In-memory members -/

/-- The members of `memMembers`, member `i` under the name `i`. -/
def namedMembers (alg : Raid6Algorithm) (n c size : Nat) (mem : Nat → Bytes) (bs : Nat → Nat) :
    List (MdDevice (Nat × InMemory)) :=
  (List.range n).map fun i =>
    let m := memMember alg n c size 0 (mem i) (bs i) i
    ⟨m.id, m.superblock, (i, m.device)⟩

theorem namedMembers_unnamed (alg : Raid6Algorithm) (n c size : Nat) (mem : Nat → Bytes) (bs : Nat → Nat) :
    (namedMembers alg n c size mem bs).map (fun x => (⟨x.id, x.superblock, x.device.2⟩ : MdDevice InMemory)) =
      memMembers alg n c size 0 mem bs := by
  unfold namedMembers memMembers
  rw [List.map_map]
  rfl

theorem claims_unnamed {N D : Type} (devices : List (MdDevice (N × D))) (x : MdDevice (N × D)) (d : Nat) :
    Claims (devices.map fun x => (⟨x.id, x.superblock, x.device.2⟩ : MdDevice D)) ⟨x.id, x.superblock, x.device.2⟩ d ↔
      Claims devices x d := by
  unfold Claims Tables
  rw [List.map_map]
  rfl

/-- A device of the named set is member `i`, under the name `i`. -/
theorem namedMembers_sole {alg : Raid6Algorithm} {n c size : Nat} {mem : Nat → Bytes} {bs : Nat → Nat}
    (hn : n ≤ 0xff00) {d : Nat} {x : MdDevice (Nat × InMemory)}
    (h : SoleClaim (namedMembers alg n c size mem bs) x d) : x.device.1 = d := by
  obtain ⟨l₁, l₂, he, hc, -⟩ := h
  have hx : x ∈ namedMembers alg n c size mem bs := by rw [he]; simp
  obtain ⟨i, hi, rfl⟩ := List.mem_map.mp hx
  have h1 := (claims_unnamed _ _ _).mpr hc
  rw [namedMembers_unnamed] at h1
  exact ((memMembers_claims hn (List.mem_range.mp hi) d).mp h1).symm

theorem namedMembers_readable {alg : Raid6Algorithm} {n c size : Nat} {mem : Nat → Bytes} {bs : Nat → Nat}
    (h0 : 0 < n) (hn : n ≤ 0xff00)
    (hm : ∀ i, i < n → 0 < bs i ∧ bs i < U32 ∧ (mem i).length < U64 ∧ bs i ∣ (mem i).length) :
    ReadableSet (fun d k => InMemory.IsDisk d.2 k) alg n c size (fun i => ⟨bs i, (mem i).length / bs i, mem i⟩)
      (namedMembers alg n c size mem bs) := by
  have hr := memMembers_readable (alg := alg) (c := c) (size := size) (offset := 0) h0 hn hm
  rw [← namedMembers_unnamed] at hr
  refine ⟨fun x hx => hr.disk _ (List.mem_map_of_mem hx), ⟨fun h => hr.superblocks.1 (by rw [h]; rfl),
    fun x hx => hr.superblocks.2 _ (List.mem_map_of_mem hx)⟩, fun d hd => ?_⟩
  obtain ⟨x, ⟨l₁, l₂, he, hc, ho⟩, hi⟩ := hr.member d hd
  obtain ⟨m₁, m₂, he2, h1, h2⟩ := List.map_eq_append_iff.mp he
  obtain ⟨y, m₃, rfl, h3, h4⟩ := List.map_eq_cons_iff.mp h2
  subst h3 h1 h4
  refine ⟨y, ⟨m₁, m₃, he2, (claims_unnamed _ _ _).mp hc, fun z hz hcz => ?_⟩, hi⟩
  refine ho ⟨z.id, z.superblock, z.device.2⟩ ?_ ((claims_unnamed _ _ _).mpr hcz)
  rw [← List.map_append]
  exact List.mem_map_of_mem hz

/-- C107, round trip: any bytes of any content, spread over in-memory members of any block sizes, are read back, and
the members have been asked for exactly the stripe sectors that these bytes belong to. -/
theorem C107_round_trip {ord : IterOrder} (hord : ord.Valid) {L n c size : Nat}
    {alg : Raid6Algorithm} {content : Bytes} {bs : Nat → Nat}
    (hL : Raid6Algorithm.fromLayout L = some alg) (hn : 3 ≤ n) (hn' : n ≤ 0xff00) (hc : 0 < c)
    (hdvd : c ∣ size) (hbytes : size * (n - 2) * 512 < U64)
    (hlen : content.length = size * (n - 2) * 512)
    (hbs : ∀ i, i < n → 0 < bs i ∧ bs i < U32 ∧ bs i ∣ size * 512) {p : Nat} {buf : Bytes}
    (hp : p + buf.length ≤ content.length) (log : List (Nat × Nat)) :
    let dev := MdArray.dev (namedDev Nat InMemory.dev)
    let r := (do
      let _ ← Reader.seek dev (.start p)
      readExact (Reader.read dev) buf : SM ((Unit × List (Nat × Nat)) × Reader (ArrayDef (Nat × InMemory))) Bytes)
        (((), log), Reader.new (MdArray.open ord (namedMembers alg n c size (encodeMember L n c size content) bs)))
    r.2 = .ok ((content.drop p).take buf.length) ∧
      r.1.1.2 = log ++ (touched p buf.length 512).flatMap (stripeOf id bs n c) := by
  intro dev r
  have hml := encodeMember_length (L := L) hn hc hdvd hlen
  have hsU : size * 512 < U64 :=
    MdArray.fit_total (Nat.le_mul_of_pos_right _ (by omega)) hbytes
  have hrd := namedMembers_readable (alg := alg) (c := c) (size := size) (mem := encodeMember L n c size content)
    (bs := bs) (n := n) (by omega) hn' (fun i hi => by
      obtain ⟨h1, h2, h3⟩ := hbs i hi
      rw [hml]
      exact ⟨h1, h2, hsU, h3⟩)
  have hset := encode_set (L := L) hn (Nat.lt_of_le_of_lt hn' (by decide)) hc hdvd hbytes hlen
    (fun i => ⟨bs i, (encodeMember L n c size content i).length / bs i, encodeMember L n c size content i⟩)
    (fun i hi => List.prefix_refl _)
  have hpU : p < U64 := by rw [hlen] at hp; omega
  have hd : DevSpec False InMemory.dev (fun _ => True) InMemory.IsDisk := InMemory.devSpec
  have hspec := C16_array_device_partial (namedDev_spec (N := Nat) hd) hord hL hrd hset
  obtain ⟨asked, h1, -, h3⟩ := C107_bytes (w := ((), log)) hd hord hL hrd (name := id)
    (fun d _ x hx => namedMembers_sole hn' hx) hset trivial hpU buf
  have hok : r.2 = .ok ((content.drop p).take buf.length) := by
    have hat : Reader.At (fun a k => a = MdArray.open ord (namedMembers alg n c size (encodeMember L n c size content)
        bs) ∧ k = (⟨512, size * (n - 2), content⟩ : Disk)) ⟨512, size * (n - 2), content⟩ (Reader.new
          (MdArray.open ord (namedMembers alg n c size (encodeMember L n c size content) bs))) 0 :=
      Reader.at_new (hspec.wf ⟨rfl, rfl⟩) ⟨rfl, rfl⟩
    obtain ⟨w1, r1, hG1, hs⟩ := Reader.seek_spec (w := ((), log)) hspec trivial hat (.start p)
      (fun q hq => by cases hq; omega)
    rcases hs with ⟨hF, -⟩ | ⟨hbad, _⟩ | ⟨q, hq, hql, hs, hr1⟩
    · exact hF.elim
    · exact absurd ⟨by simp [seekGoal], by simp only [seekGoal]; omega⟩ hbad
    have hpq : p = q := by simp only [seekGoal] at hq; omega
    subst hpq
    obtain ⟨w2, r2, pos2, -, -, he⟩ := Reader.readExact_spec hspec buf hG1 hr1
    show ((Reader.seek dev (.start p) >>= fun _ => readExact (Reader.read dev) buf) _).2 = _
    rw [SM.bind_ok (h := hs)]
    rcases he with ⟨hF, -⟩ | ⟨hlt, -, -⟩ | ⟨-, -, he⟩
    · exact hF.elim
    · simp only at hlt; omega
    · rw [he]
  refine ⟨hok, ?_⟩
  rw [← h3 _ hok]
  exact h1

/-- C107, such an array: 5 members with blocks of 1024 bytes, chunks of 2 sectors, 4 sectors a member. -/
example (content : Bytes) (h : content.length = 6144) := C107_round_trip (ord := fun _ l => l)
  (fun _ _ => List.Perm.refl _) (L := 2) (n := 5) (c := 2) (size := 4) (bs := fun _ => 1024) (content := content)
  (p := 700) (buf := zeros 1000) rfl (by decide) (by decide) (by decide) (by decide) (by decide) (by rw [h])
  (by decide) (by rw [h, zeros, List.length_replicate]; decide) []

/-- C107, in numbers: four members, chunks of 4 sectors; members 1 and 3 have blocks of 4096 bytes, the others of 512.
The last 100 bytes of sector 3 of the array and the first 100 of sector 4 are read.  Sector 4 is in the next chunk of
the same stripe, so that the members are asked for sector 3 of theirs and then for sector 0, those with large blocks
for block 0 twice. -/
example : (touched (4 * 512 - 100) 200 512).flatMap
    (stripeOf (id : Nat → Nat) (fun d => if d % 2 = 1 then 4096 else 512) 4 4) =
      [(0, 3), (1, 0), (2, 3), (3, 0), (0, 0), (1, 0), (2, 0), (3, 0)] := by decide +kernel

/-- C107, of a member with blocks of 100 bytes: six blocks have something of sector 3, the bytes 1536 to 2047. -/
example : sectorOf (id : Nat → Nat) (fun _ => 100) 3 5 =
    [(5, 15), (5, 16), (5, 17), (5, 18), (5, 19), (5, 20)] := by decide +kernel

end MdRecover
