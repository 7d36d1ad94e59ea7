import Verif.Props.Lazy
import Verif.Props.Ext4Path
import Verif.Spec.PathTrace

/-! What following a path asks a device for. -/

namespace MdRecover
open MdSpec
variable [Build]

section
variable {W D : Type} {F : Prop} {dev : StreamDev W D} {G : W → Prop} {Is : D → Bytes → Prop}
  {At : W → D → Nat → Prop} {lim : Nat → Nat}

omit [Build] in
theorem loggedDev_seekable (hv : SeekableVolume F lim dev G Is At) :
    SeekableVolume F lim (loggedDev dev) (fun w => G w.1) Is (fun w d p => At w.1 d p) where
  toVolumeSpec := loggedDev_spec hv.toVolumeSpec
  seekAccepted := by
    rintro ⟨w, l⟩ d c hG hd p hp hl
    rcases hx : dev.seek (.start p) (w, d) with ⟨⟨w1, d1⟩, r1⟩
    rw [logged_seek l hx]
    have := hv.seekAccepted hG hd p hp hl
    rwa [hx] at this
  seekRefused := by
    rintro ⟨w, l⟩ d c hG hd p hp hl
    rcases hx : dev.seek (.start p) (w, d) with ⟨⟨w1, d1⟩, r1⟩
    rw [logged_seek l hx]
    have := hv.seekRefused hG hd p hp hl
    rwa [hx] at this

/-- The calls made to look up a name: all but the last gave records that are not wanted. -/
theorem lookUp_calls {rounds : Nat} {name : Bytes} : ∀ (k : Nat) (s s' : W × Ext4Directory D)
    (r : Res (Option (Option Nat))), lookUp dev rounds name k s = (s', r) → r ≠ .panic → r ≠ .ok none →
    ∀ (s0 : W × Ext4Directory D) (h0 : List (Res (Option DirEntry))), DirCalls dev s0 h0 s → 
    (∀ x ∈ h0, ∃ a, x = .ok a) →
    ∃ h, DirCalls dev s0 h s' ∧ ((∃ a, r = .ok a) → ∀ x ∈ h, ∃ a, x = .ok a) ∧
      (r = .ok (some none) → .ok none ∈ h) := by
  intro k
  induction k with
  | zero => intro s s' r h _ h2; cases h; exact absurd rfl h2
  | succ k ih =>
    intro s s' r h h1 h2 s0 h0 hc hok
    rcases e : Ext4Directory.readNextEntry dev rounds s with ⟨t, (_ | o) | x | _⟩
    · rw [lookUp, SM.bind_ok (h := e)] at h
      cases h
      exact absurd rfl h2
    · rw [lookUp_entry e] at h
      have hc' : DirCalls dev s0 (h0 ++ [.ok o]) t := .snoc s0 s t h0 _ hc ⟨rounds, e⟩ (fun h => (by cases h))
      have hok' : ∀ x ∈ h0 ++ [.ok o], ∃ a, x = .ok a := by
        intro x hx
        rcases List.mem_append.1 hx with hx | hx
        · exact hok x hx
        · exact ⟨o, List.mem_singleton.1 hx⟩
      cases o with
      | none =>
        cases h
        exact ⟨_, hc', fun _ => hok', fun _ => List.mem_append_right _ List.mem_cons_self⟩
      | some e' =>
        simp only at h
        by_cases hw : Wanted name e'
        · rw [if_pos hw] at h
          cases h
          exact ⟨_, hc', fun _ => hok', fun h => by cases h⟩
        · rw [if_neg hw] at h
          exact ih t s' r h h1 h2 s0 _ hc' hok'
    · rw [lookUp, SM.bind_err (h := e)] at h
      cases h
      exact ⟨h0 ++ [.err x], .snoc s0 s s' h0 _ hc ⟨rounds, e⟩ (fun h => (by cases h)),
        fun ⟨_, h⟩ => (by cases h), fun h => by cases h⟩
    · rw [lookUp, SM.bind_panic (h := e)] at h
      cases h
      exact absurd rfl h1

/-- The calls made to read a file to its end. -/
theorem readBlocks_calls {rounds bs : Nat} : ∀ (k : Nat) (s s' : W × Ext4File D) (r : Res (Option Bytes)),
    readBlocks dev rounds bs k s = (s', r) → r ≠ .panic → r ≠ .ok none →
    ∀ (s0 : W × Ext4File D) (h0 : List (Bytes × Res (Nat × Bytes))), Calls dev s0 h0 s →
    (∀ x ∈ h0, (∃ a, x.2 = .ok a) ∧ x.1.length ≤ bs) →
    ∃ h, Calls dev s0 h s' ∧ (∀ x ∈ h, x.1.length ≤ bs) ∧
      ((∃ a, r = .ok a) → (∀ x ∈ h, ∃ a, x.2 = .ok a) ∧ ∃ buf out, (buf, Res.ok (0, out)) ∈ h) := by
  have hz : (zeros bs).length ≤ bs := Nat.le_of_eq List.length_replicate
  intro k
  induction k with
  | zero => intro s s' r h _ h2; cases h; exact absurd rfl h2
  | succ k ih =>
    intro s s' r h h1 h2 s0 h0 hc hok
    rcases e : Ext4File.readNextBlock dev rounds (zeros bs) s with ⟨t, (_ | ⟨n, b⟩) | x | _⟩
    · rw [readBlocks, SM.bind_ok (h := e)] at h
      cases h
      exact absurd rfl h2
    · rw [readBlocks, SM.bind_ok (h := e)] at h
      have hc' : Calls dev s0 (h0 ++ [(zeros bs, .ok (n, b))]) t :=
        .snoc s0 s t h0 _ _ hc ⟨rounds, e⟩ (fun h => (by cases h))
      have hok' : ∀ x ∈ h0 ++ [(zeros bs, Res.ok (n, b))], (∃ a, x.2 = .ok a) ∧ x.1.length ≤ bs := by
        intro x hx
        rcases List.mem_append.1 hx with hx | hx
        · exact hok x hx
        · rw [List.mem_singleton.1 hx]; exact ⟨⟨_, rfl⟩, hz⟩
      simp only at h
      by_cases hn : n = 0
      · rw [if_pos hn] at h
        cases h
        subst hn
        exact ⟨_, hc', fun x hx => (hok' x hx).2, fun _ => ⟨fun x hx => (hok' x hx).1, _, _,
          List.mem_append_right _ List.mem_cons_self⟩⟩
      · rw [if_neg hn] at h
        rcases f : readBlocks dev rounds bs k t with ⟨u, c⟩
        have key : s' = u ∧ c ≠ .panic ∧ c ≠ .ok none ∧ ((∃ a, r = .ok a) → ∃ a, c = .ok a) := by
          cases c with
          | ok o =>
            rw [SM.bind_ok (h := f)] at h
            cases h
            refine ⟨rfl, fun h => (by cases h), ?_, fun _ => ⟨o, rfl⟩⟩
            rintro h
            cases h
            exact h2 rfl
          | err x =>
            rw [SM.bind_err (h := f)] at h
            cases h
            exact ⟨rfl, fun h => (by cases h), fun h => (by cases h), fun ⟨_, h⟩ => (by cases h)⟩
          | panic =>
            rw [SM.bind_panic (h := f)] at h
            cases h
            exact absurd rfl h1
        obtain ⟨rfl, k1, k2, k3⟩ := key
        obtain ⟨h', m1, m2, m3⟩ := ih t s' c f k1 k2 s0 _ hc' hok'
        exact ⟨h', m1, m2, fun hr => m3 (k3 hr)⟩
    · rw [readBlocks, SM.bind_err (h := e)] at h
      cases h
      refine ⟨h0 ++ [(zeros bs, .err x)], .snoc s0 s s' h0 _ _ hc ⟨rounds, e⟩ (fun h => (by cases h)), ?_,
        fun ⟨_, h⟩ => (by cases h)⟩
      intro y hy
      rcases List.mem_append.1 hy with hy | hy
      · exact (hok y hy).2
      · rw [List.mem_singleton.1 hy]; exact hz
    · rw [readBlocks, SM.bind_panic (h := e)] at h
      cases h
      exact absurd rfl h1

/-- Opening a file asks for its inode. -/
theorem openFile_asked (hv : VolumeSpec F dev G Is At) {c : Bytes} {w : W} (hG : G w) {fs : Ext4Fs D}
    (ho : Opened Is c fs) {n : Nat} {l : List Asked} {s : (W × List Asked) × Ext4Fs D} {r : Res (OpenedFile D)}
    (h : Ext4Fs.openFile (loggedDev dev) n ((w, l), fs) = (s, r)) :
    (s.1.2 = l ∧ ∃ e, r = .err e) ∨ ∃ log, s.1.2 = l ++ log ∧ InodeAsks c n log := by
  unfold Ext4Fs.openFile at h
  rw [SM.bind_ok (h := SM.get_apply _)] at h
  rcases hx : Ext4Fs.tryClone (loggedDev dev) fs (w, l) with ⟨⟨w1, l1⟩, r1⟩
  have hz : SM.zoom (fun s : (W × List Asked) × Ext4Fs D => s.1) (fun s w => (w, s.2))
      (Ext4Fs.tryClone (loggedDev dev) fs) ((w, l), fs) = (((w1, l1), fs), r1) := by
    simp only [SM.zoom, hx]
  have hl : l1 = l ∧ G w1 ∧ r1 ≠ .panic := by
    unfold Ext4Fs.tryClone at hx
    rcases hy : dev.tryClone fs.device w with ⟨w2, r2⟩
    obtain ⟨hG2, h2⟩ := hv.tryClone hG ho.device hy
    have hy' := logged_clone l hy
    rcases r2 with d | e | _
    · rw [SM.bind_ok (h := hy')] at hx
      cases hx
      exact ⟨rfl, hG2, fun h => (by cases h)⟩
    · rw [SM.bind_err (h := hy')] at hx
      cases hx
      exact ⟨rfl, hG2, fun h => (by cases h)⟩
    · rcases h2 with ⟨d', h2, -⟩ | ⟨-, e, h2⟩ <;> cases h2
  obtain ⟨rfl, hG1, hp⟩ := hl
  rcases r1 with fs1 | e | _
  · rw [SM.bind_ok (h := hz)] at h
    rcases hr : Ext4Fs.readInode (loggedDev dev) n ((w1, l1), fs) with ⟨s2, r2⟩
    have hcase := C104_inode hv c w1 hG1 fs ho n l1 s2 r2 hr
    rcases r2 with i | e | _
    · rw [SM.bind_ok (h := hr), SM.lift_apply] at h
      cases h
      rcases hcase with ⟨-, e, h2⟩ | ⟨reads, h2, h3⟩
      · cases h2
      · exact .inr ⟨_, h2, reads, rfl, h3⟩
    · rw [SM.bind_err (h := hr)] at h
      cases h
      rcases hcase with ⟨h2, -⟩ | ⟨reads, h2, h3⟩
      · exact .inl ⟨h2, e, rfl⟩
      · exact .inr ⟨_, h2, reads, rfl, h3⟩
    · rw [SM.bind_panic (h := hr)] at h
      cases h
      rcases hcase with ⟨-, e, h2⟩ | ⟨reads, h2, h3⟩
      · cases h2
      · exact .inr ⟨_, h2, reads, rfl, h3⟩
  · rw [SM.bind_err (h := hz)] at h
    cases h
    exact .inl ⟨rfl, e, rfl⟩
  · exact absurd rfl hp

/-- Looking up a name in a directory just opened. -/
theorem lookUp_asked (hv : VolumeSpec F dev G Is At) {c : Bytes} (hc : c.length < U64) {w0 w : W} (hG0 : G w0)
    {l0 l : List Asked} {fs0 fs : Ext4Fs D} (ho0 : Opened Is c fs0) {n : Nat} {records : List Bytes}
    (hd : DirectoryAt c n records) {d : Ext4Directory D}
    (hopen : Ext4Fs.openFile (loggedDev dev) n ((w0, l0), fs0) = (((w, l), fs), .ok (.directory d)))
    {rounds k : Nat} {name : Bytes} {s : (W × List Asked) × Ext4Directory D} {r : Res (Option (Option Nat))}
    (h : lookUp (loggedDev dev) rounds name k ((w, l), d) = (s, r)) (h1 : r ≠ .panic) (h2 : r ≠ .ok none) :
    ∃ order ys log, s.1.2 = l ++ log ∧ BlocksAsk c n order ys log ∧ ((∃ a, r = .ok a) → ys <+: order) ∧
      (r = .ok (some none) → ys = order) := by
  obtain ⟨xs, ess, seed, hx, hin, h32, hsize, hseed, hes, rfl⟩ := hd.blocks
  obtain ⟨-, -, -, hG, -, i, fs2, hi, ho2, -, -, -, h3⟩ :=
    C75_success (loggedDev_spec hv) c (w0, l0) (w, l) fs0 fs hG0 ho0 n _ hopen
  obtain ⟨-, -, k1, -, -, -, -, -, k2, -⟩ := C60_fields _ _ _ i hi
  have k1 : i.fileSizeBytes = sizeOf c n := k1
  have k2 : i.blocksBuffer = rootNode c n := k2
  obtain ⟨order, horder, -⟩ := C104_order hx
  obtain ⟨hist, c1, c2, c3⟩ := lookUp_calls k _ _ _ h h1 h2 _ [] (.nil _) (fun x hx => by cases hx)
  obtain ⟨log, ys, e1, e2, e3, e4⟩ := C104_listing hv c hc w hG fs2 ho2 i d h3
    (.inr (by rw [k1, hsize]; exact Nat.mul_le_mul_right _ (by omega))) order (by rw [k2]; exact horder) l hist s c1
  refine ⟨order, ys, log, e1, ⟨horder, e3, e2⟩, fun hr => (e4 (c2 hr)).1, fun hr => ?_⟩
  exact (e4 (c2 ⟨_, hr⟩)).2 (c3 hr)

/-- Reading a file just opened to its end. -/
theorem readBlocks_asked (hv : VolumeSpec F dev G Is At) {c : Bytes} (hc : c.length < U64) {w0 w : W} (hG0 : G w0)
    {l0 l : List Asked} {fs0 fs : Ext4Fs D} (ho0 : Opened Is c fs0) {n : Nat} {content : Bytes}
    (hd : FileAt c n content) {f : Ext4File D}
    (hopen : Ext4Fs.openFile (loggedDev dev) n ((w0, l0), fs0) = (((w, l), fs), .ok (.regularFile f)))
    {rounds k : Nat} {s : (W × List Asked) × Ext4File D} {r : Res (Option Bytes)}
    (h : readBlocks (loggedDev dev) rounds (blockSizeOf (sbOf c)) k ((w, l), f) = (s, r)) (h1 : r ≠ .panic)
    (h2 : r ≠ .ok none) :
    ∃ order ys log, s.1.2 = l ++ log ∧ BlocksAsk c n order ys log ∧ ((∃ a, r = .ok a) → ys = order) := by
  obtain ⟨xs, hx, hin, h32, hsize, hlast, rfl⟩ := hd.blocks
  obtain ⟨-, -, -, hG, -, i, fs2, hi, ho2, -, -, h3, -⟩ :=
    C75_success (loggedDev_spec hv) c (w0, l0) (w, l) fs0 fs hG0 ho0 n _ hopen
  obtain ⟨-, -, -, -, -, -, -, -, k2, -⟩ := C60_fields _ _ _ i hi
  have k2 : i.blocksBuffer = rootNode c n := k2
  obtain ⟨order, horder, -⟩ := C104_order hx
  obtain ⟨hist, c1, c2, c3⟩ := readBlocks_calls k _ _ _ h h1 h2 _ [] (.nil _) (fun x hx => by cases hx)
  obtain ⟨log, ys, e1, e2, e3, e4⟩ := C104_requests hv c hc w hG fs2 ho2 i f h3 order (by rw [k2]; exact horder) l
    hist s c1 _ c2
  refine ⟨order, ys, log, e1, ⟨horder, e3, e2⟩, fun hr => ?_⟩
  obtain ⟨c4, c5⟩ := c3 hr
  exact (e4 fun x hx => .inr (c4 x hx)).2 c5

end

/-! ## The whole path -/

omit [Build] in
/-- What the names lead to, from inode `n` on: as in `Says`. -/
inductive Along (c : Bytes) : Nat → List Bytes → Prop where
  | file (n : Nat) (b : Bytes) : FileAt c n b → Along c n []
  | notAFile (n : Nat) : InodeReadable c n → typeNumber c n ≠ 8 →
      (typeNumber c n = 4 → hasExtents c n ∧ ¬ flagBit c n 12) → Along c n []
  | missing (n : Nat) (name : Bytes) (names : List Bytes) (records : List Bytes) : DirectoryAt c n records →
      (∀ x ∈ records, recordInode x ≠ 0 → CleanName x) → (∀ x ∈ records, ¬ Names name x) →
      Along c n (name :: names)
  | notADirectory (n : Nat) (name : Bytes) (names : List Bytes) : InodeReadable c n → typeNumber c n ≠ 4 →
      (typeNumber c n = 8 → hasExtents c n) → Along c n (name :: names)
  | into (n : Nat) (name : Bytes) (names : List Bytes) (before after : List Bytes) (e : Bytes) :
      DirectoryAt c n (before ++ e :: after) → Names name e → (∀ x ∈ before, ¬ Names name x) →
      (∀ x ∈ before ++ [e], recordInode x ≠ 0 → CleanName x) → Along c (recordInode e) names →
      Along c n (name :: names)

omit [Build] in
theorem leads_along {c : Bytes} {n m : Nat} {front rest : List Bytes} (h : Leads c CleanName n front m)
    (hr : Along c m rest) : Along c n (front ++ rest) := by
  induction h with
  | here n => exact hr
  | into n m name names before after e h1 h2 h3 h4 _ ih => exact .into n name _ before after e h1 h2 h3 h4 (ih hr)

omit [Build] in
theorem says_along {c : Bytes} {names : List Bytes} {out : Found} (h : Says c names out) : Along c 2 names := by
  cases h with
  | content m b hl hf =>
    have := leads_along hl (.file m b hf)
    rwa [List.append_nil] at this
  | missing front rest name n records hn hl hd hcl hno =>
    rw [hn]
    exact leads_along hl (.missing n name rest records hd hcl hno)
  | notADirectory front rest name n hn hl h1 h2 h3 =>
    rw [hn]
    exact leads_along hl (.notADirectory n name rest h1 h2 h3)
  | notAFile m hl h1 h2 h3 =>
    have := leads_along hl (.notAFile m h1 h2 h3)
    rwa [List.append_nil] at this

/-- In-memory devices and their contents. -/
abbrev Mem : InMemory → Bytes → Prop := fun d c => d.mem = c

/-- Opening a file that can be opened in memory. -/
theorem open_pair {W D : Type} {F : Prop} {dev : StreamDev W D} {G : W → Prop} {Is : D → Bytes → Prop}
    {At : W → D → Nat → Prop} {lim : Nat → Nat} (hv : SeekableVolume F lim dev G Is At) {c : Bytes}
    (hlim : lim c.length = U64 ∨ (F ∧ lim c.length ≤ U64)) {n : Nat} {fs2 fs2' : Ext4Fs InMemory}
    {x2 : OpenedFile InMemory} (h2 : Ext4Fs.openFile InMemory.streamDev n ((), fs2) = (((), fs2'), .ok x2)) {w : W}
    {l : List Asked} {fs : Ext4Fs D} (hG : G w) (hfs : Ext4Sim.Fs Is Mem c fs fs2)
    {s : (W × List Asked) × Ext4Fs D} {r : Res (OpenedFile D)}
    (h : Ext4Fs.openFile (loggedDev dev) n ((w, l), fs) = (s, r)) :
    (∃ x1, r = .ok x1 ∧ Ext4Sim.Op Is Mem c x1 x2 ∧ G s.1.1 ∧ Ext4Sim.Fs Is Mem c s.2 fs2') ∨ ∃ e, r = .err e := by
  rcases Ext4Sim.openFile (loggedDev_seekable hv) InMemory.seekableVolume hlim n ((w, l), fs) ((), fs2)
    ⟨⟨hG, trivial⟩, hfs⟩ with ⟨t1, t2, a1, a2, e1, e2, h3, h4⟩ | ⟨t1, t2, e, e1, e2, -⟩ | ⟨t1, t2, e1, e2, -⟩ |
    ⟨hF, t1, e, e1, -⟩
  · rw [h] at e1
    rw [h2] at e2
    cases e1; cases e2
    exact .inl ⟨a1, rfl, h3, h4.1.1, h4.2⟩
  · rw [h2] at e2; cases e2
  · rw [h2] at e2; cases e2
  · rw [h] at e1
    cases e1
    exact .inr ⟨e, rfl⟩

/-- Looking up a name that is found, or not found, in memory. -/
theorem lookUp_pair {W D : Type} {F : Prop} {dev : StreamDev W D} {G : W → Prop} {Is : D → Bytes → Prop}
    {At : W → D → Nat → Prop} {lim : Nat → Nat} (hv : SeekableVolume F lim dev G Is At) {c : Bytes}
    (hlim : lim c.length = U64 ∨ (F ∧ lim c.length ≤ U64)) {rounds k : Nat} {name : Bytes}
    {d2 d2' : Ext4Directory InMemory} {o : Option (Option Nat)}
    (h2 : lookUp InMemory.streamDev rounds name k ((), d2) = (((), d2'), .ok o)) {w : W}
    {l : List Asked} {d : Ext4Directory D} (hG : G w) (hd : Ext4Sim.Dr Is Mem c d d2)
    {s : (W × List Asked) × Ext4Directory D} {r : Res (Option (Option Nat))}
    (h : lookUp (loggedDev dev) rounds name k ((w, l), d) = (s, r)) :
    (r = .ok o ∧ G s.1.1) ∨ ∃ e, r = .err e := by
  rcases Ext4Sim.lookUp (loggedDev_seekable hv) InMemory.seekableVolume hlim rounds name k ((w, l), d) ((), d2)
    ⟨⟨hG, trivial⟩, hd⟩ with ⟨t1, t2, a1, a2, e1, e2, h3, h4⟩ | ⟨t1, t2, e, e1, e2, -⟩ | ⟨t1, t2, e1, e2, -⟩ |
    ⟨hF, t1, e, e1, -⟩
  · rw [h] at e1
    rw [h2] at e2
    cases e1; cases e2
    subst h3
    exact .inl ⟨rfl, h4.1.1⟩
  · rw [h2] at e2; cases e2
  · rw [h2] at e2; cases e2
  · rw [h] at e1
    cases e1
    exact .inr ⟨e, rfl⟩

/-- The same for reading a file. -/
theorem readBlocks_pair {W D : Type} {F : Prop} {dev : StreamDev W D} {G : W → Prop} {Is : D → Bytes → Prop}
    {At : W → D → Nat → Prop} {lim : Nat → Nat} (hv : SeekableVolume F lim dev G Is At) {c : Bytes}
    (hlim : lim c.length = U64 ∨ (F ∧ lim c.length ≤ U64)) {rounds bs k : Nat}
    {f2 f2' : Ext4File InMemory} {o : Option Bytes}
    (h2 : readBlocks InMemory.streamDev rounds bs k ((), f2) = (((), f2'), .ok o)) {w : W}
    {l : List Asked} {f : Ext4File D} (hG : G w) (hf : Ext4Sim.Fl Is Mem c f f2)
    {s : (W × List Asked) × Ext4File D} {r : Res (Option Bytes)}
    (h : readBlocks (loggedDev dev) rounds bs k ((w, l), f) = (s, r)) :
    r = .ok o ∨ ∃ e, r = .err e := by
  rcases Ext4Sim.readBlocks (loggedDev_seekable hv) InMemory.seekableVolume hlim rounds bs k ((w, l), f) ((), f2)
    ⟨⟨hG, trivial⟩, hf⟩ with ⟨t1, t2, a1, a2, e1, e2, h3, h4⟩ | ⟨t1, t2, e, e1, e2, -⟩ | ⟨t1, t2, e1, e2, -⟩ |
    ⟨hF, t1, e, e1, -⟩
  · rw [h] at e1
    rw [h2] at e2
    cases e1; cases e2
    subst h3
    exact .inl rfl
  · rw [h2] at e2; cases e2
  · rw [h2] at e2; cases e2
  · rw [h] at e1
    cases e1
    exact .inr ⟨e, rfl⟩

/-- Looking up a name, if the calls in memory give records that are not wanted and then `e`, which is: the last call
made gives `e`. -/
theorem lookUp_record {W D : Type} {F : Prop} {dev : StreamDev W D} {G : W → Prop} {Is : D → Bytes → Prop}
    {At : W → D → Nat → Prop} {lim : Nat → Nat} (hv : SeekableVolume F lim dev G Is At) {c : Bytes}
    (hlim : lim c.length = U64 ∨ (F ∧ lim c.length ≤ U64)) (hc : c.length < U64) {i : Inode} {rounds : Nat}
    {name : Bytes} {e : DirEntry} (he : Wanted name e) (rest : List (Res (Option DirEntry))) :
    ∀ (before : List DirEntry) (k : Nat) (s : W × Ext4Directory D) (s2 : Unit × Ext4Directory InMemory),
      Ext4Sim.Both G (fun _ => True) (Ext4Sim.Dr Is Mem c) s s2 → (∀ x ∈ before, ¬ Wanted name x) →
      Ext4Directory.Left Mem (fun _ => True) c i s2 ((before.map fun x => .ok (some x)) ++ .ok (some e) :: rest) →
      ∀ (s' : W × Ext4Directory D) (o : Option Nat), lookUp dev rounds name k s = (s', .ok (some o)) →
      ∀ (s0 : W × Ext4Directory D) (h0 : List (Res (Option DirEntry))), DirCalls dev s0 h0 s →
      (∀ x ∈ h0, ∃ a, x = .ok a) →
      ∃ t h, DirCalls dev s0 h t ∧ (∀ x ∈ h, ∃ a, x = .ok a) ∧ EntryReturns dev t s' (.ok (some e)) := by
  intro before
  induction before with
  | nil =>
    intro k s s2 hb _ hl s' o h s0 h0 hcalls hok
    cases k with
    | zero => cases h
    | succ k =>
    obtain ⟨t2, r, h1, rfl, h2, h3⟩ := Ext4Directory.call_gives InMemory.volumeSpec hc hl
    rcases Ext4Sim.readNextEntry hv InMemory.seekableVolume hlim rounds s s2 hb with
      ⟨t1, t2', a1, a2, e1, e2, rfl, h4⟩ | ⟨t1, t2', x, e1, e2, -⟩ | ⟨t1, t2', e1, e2, -⟩ | ⟨hF, t1, x, e1, -⟩
    · cases a1 with
      | none =>
        rw [lookUp, SM.bind_ok (h := e1)] at h
        cases h
      | some a =>
        obtain ⟨rfl, h5⟩ := Ext4Directory.entryReturns_unique (r1 := .ok a) ⟨rounds, e2⟩ h1
        cases h5
        rw [lookUp_entry e1] at h
        simp only at h
        rw [if_pos he] at h
        cases h
        exact ⟨s, h0, hcalls, hok, rounds, e1⟩
    · rw [lookUp, SM.bind_err (h := e1)] at h
      cases h
    · rw [lookUp, SM.bind_panic (h := e1)] at h
      cases h
    · rw [lookUp, SM.bind_err (h := e1)] at h
      cases h
  | cons y before ih =>
    intro k s s2 hb hno hl s' o h s0 h0 hcalls hok
    cases k with
    | zero => cases h
    | succ k =>
    obtain ⟨t2, r, h1, rfl, h2, h3⟩ := Ext4Directory.call_gives InMemory.volumeSpec hc hl
    rcases Ext4Sim.readNextEntry hv InMemory.seekableVolume hlim rounds s s2 hb with
      ⟨t1, t2', a1, a2, e1, e2, rfl, h4⟩ | ⟨t1, t2', x, e1, e2, -⟩ | ⟨t1, t2', e1, e2, -⟩ | ⟨hF, t1, x, e1, -⟩
    · cases a1 with
      | none =>
        rw [lookUp, SM.bind_ok (h := e1)] at h
        cases h
      | some a =>
        obtain ⟨rfl, h5⟩ := Ext4Directory.entryReturns_unique (r1 := .ok a) ⟨rounds, e2⟩ h1
        cases h5
        rw [lookUp_entry e1] at h
        simp only at h
        rw [if_neg (hno y List.mem_cons_self)] at h
        refine ih k t1 t2' h4 (fun x hx => hno x (List.mem_cons_of_mem _ hx)) h3 s' o h s0 (h0 ++ [.ok (some y)])
          (.snoc s0 s t1 h0 _ hcalls ⟨rounds, e1⟩ (fun h => (by cases h))) fun x hx => ?_
        rcases List.mem_append.1 hx with hx | hx
        · exact hok x hx
        · exact ⟨_, List.mem_singleton.1 hx⟩
    · rw [lookUp, SM.bind_err (h := e1)] at h
      cases h
    · rw [lookUp, SM.bind_panic (h := e1)] at h
      cases h
    · rw [lookUp, SM.bind_err (h := e1)] at h
      cases h

/-- The requests made to look up a name that is found, in a directory just opened. -/
theorem found_asked {W D : Type} {F : Prop} {dev : StreamDev W D} {G : W → Prop} {Is : D → Bytes → Prop}
    {At : W → D → Nat → Prop} (hv : VolumeSpec F dev G Is At) {c : Bytes} (hc : c.length < U64) {w0 w : W} (hG0 : G w0)
    {l0 l : List Asked} {fs0 fs : Ext4Fs D} (ho0 : Opened Is c fs0) {n : Nat} {records : List Bytes}
    (hd : DirectoryAt c n records) {d : Ext4Directory D}
    (hopen : Ext4Fs.openFile (loggedDev dev) n ((w0, l0), fs0) = (((w, l), fs), .ok (.directory d)))
    {t s : (W × List Asked) × Ext4Directory D} {h : List (Res (Option DirEntry))}
    (hcalls : DirCalls (loggedDev dev) ((w, l), d) h t) (hok : ∀ x ∈ h, ∃ a, x = .ok a) {e : Bytes}
    (hret : EntryReturns (loggedDev dev) t s (.ok (some ⟨e⟩))) :
    ∃ order front x log, s.1.2 = l ++ log ∧ BlocksAsk c n order (front ++ [x]) log ∧ front ++ [x] <+: order ∧
      HoldsRecord c n x e := by
  obtain ⟨xs, ess, seed, hx, hin, h32, hsize, hseed, hes, rfl⟩ := hd.blocks
  obtain ⟨-, -, -, hG, -, i, fs2, hi, ho2, -, -, -, h3⟩ :=
    C75_success (loggedDev_spec hv) c (w0, l0) (w, l) fs0 fs hG0 ho0 n _ hopen
  obtain ⟨-, -, k1, -, -, -, -, -, k2, -⟩ := C60_fields _ _ _ i hi
  have k1 : i.fileSizeBytes = sizeOf c n := k1
  have k2 : i.blocksBuffer = rootNode c n := k2
  have k3 := inodeSeed_eq ho0.superblock hi hseed
  obtain ⟨order, horder, -⟩ := C104_order hx
  obtain ⟨log, front, x, es, e1, e2, e3, e4, e5, e6⟩ := C109_listing hv c hc w hG fs2 ho2 i d h3
    (.inr (by rw [k1, hsize]; exact Nat.mul_le_mul_right _ (by omega))) order (by rw [k2]; exact horder) l h t s
    hcalls _ hret
  rw [k3] at e5
  exact ⟨order, front, x, log, e1, ⟨horder, e3, e2⟩, e4 hok, seed, es, hseed, e5, e6⟩

/-- Opening a file that can be opened in memory: the requests, and what follows. -/
theorem open_step {W D : Type} {F : Prop} {dev : StreamDev W D} {G : W → Prop} {Is : D → Bytes → Prop}
    {At : W → D → Nat → Prop} {lim : Nat → Nat} (hv : SeekableVolume F lim dev G Is At) {c : Bytes}
    (hlim : lim c.length = U64 ∨ (F ∧ lim c.length ≤ U64)) {n : Nat} {fs2 fs2' : Ext4Fs InMemory}
    {x2 : OpenedFile InMemory} (h2 : Ext4Fs.openFile InMemory.streamDev n ((), fs2) = (((), fs2'), .ok x2)) {w : W}
    {l : List Asked} {fs : Ext4Fs D} (hG : G w) (ho : Opened Is c fs) (hfs : Ext4Sim.Fs Is Mem c fs fs2) :
    (∃ w1 fs1 x1 log, Ext4Fs.openFile (loggedDev dev) n ((w, l), fs) = (((w1, l ++ log), fs1), .ok x1) ∧ G w1 ∧
      Opened Is c fs1 ∧ Ext4Sim.Fs Is Mem c fs1 fs2' ∧ Ext4Sim.Op Is Mem c x1 x2 ∧ InodeAsks c n log) ∨
    (∃ w1 fs1 x log, Ext4Fs.openFile (loggedDev dev) n ((w, l), fs) = (((w1, l ++ log), fs1), .err x) ∧
      ∀ names, Walk c n names false log) := by
  rcases e : Ext4Fs.openFile (loggedDev dev) n ((w, l), fs) with ⟨⟨⟨w1, l1⟩, fs1⟩, r1⟩
  have hlog := openFile_asked hv.toVolumeSpec hG ho e
  rcases open_pair hv hlim h2 hG hfs e with ⟨x1, rfl, h1, hG1, hfs1⟩ | ⟨x, rfl⟩
  · rcases hlog with ⟨-, x, h3⟩ | ⟨log, h3, hlog⟩
    · cases h3
    have h3 : l1 = l ++ log := h3
    subst h3
    obtain ⟨-, -, -, -, ho1, -⟩ := C75_success (loggedDev_spec hv.toVolumeSpec) c (w, l) _ fs fs1 hG ho n _ e
    exact .inl ⟨w1, fs1, x1, log, rfl, hG1, ho1, hfs1, h1, hlog⟩
  · rcases hlog with ⟨h3, -⟩ | ⟨log, h3, hlog⟩
    · have h3 : l1 = l := h3
      subst h3
      exact .inr ⟨w1, fs1, x, [], by rw [List.append_nil], fun names => .before _ _⟩
    · have h3 : l1 = l ++ log := h3
      subst h3
      exact .inr ⟨w1, fs1, x, log, rfl, fun names => .inode _ _ _ hlog⟩

/-- Following the names: the requests. -/
theorem follow_asked {c : Bytes} (hc : c.length < U64) {n : Nat} {names : List Bytes} (h : Along c n names) :
    ∀ fs2 : Ext4Fs InMemory, Opened Mem c fs2 → ∃ N, ∀ rounds, N ≤ rounds → ∀ {W D : Type} {F : Prop}
      {lim : Nat → Nat} {dev : StreamDev W D} {G : W → Prop} {Is : D → Bytes → Prop} {At : W → D → Nat → Prop},
      SeekableVolume F lim dev G Is At → (lim c.length = U64 ∨ (F ∧ lim c.length ≤ U64)) →
      ∀ (w : W) (l : List Asked) (fs : Ext4Fs D), G w → Opened Is c fs → Ext4Sim.Fs Is Mem c fs fs2 →
      ∀ (s : (W × List Asked) × Ext4Fs D) (r : Res Found),
        follow (loggedDev dev) rounds names n ((w, l), fs) = (s, r) →
        ∃ whole log, s.1.2 = l ++ log ∧ Walk c n names whole log ∧ ((∃ a, r = .ok a) → whole = true) := by
  induction h with
  | file n b hf =>
    intro fs2 ho2
    obtain ⟨u2, fs2', r2, a1, -, ho2', a2, -⟩ :=
      C75_outcome InMemory.volumeSpec c hc () fs2 trivial ho2 n hf.readable
    obtain ⟨f2, rfl⟩ := a2 hf.type hf.extents
    obtain ⟨s2, N, a3⟩ := follow_file InMemory.volumeSpec hc (w := ()) trivial ho2 hf
    refine ⟨N, fun rounds hr {W D F lim dev G Is At} hv hlim w l fs hG ho hfs s r h => ?_⟩
    rw [follow] at h
    rcases open_step (l := l) hv hlim a1 hG ho hfs with ⟨w1, fs1, x1, log, e, hG1, ho1, hfs1, h1, hlog⟩ | ⟨w1, fs1, x, log, e, hlog⟩
    · match x1, h1, e with
      | .regularFile f, h1, e =>
        have h1 : Ext4Sim.Fl Is Mem c f f2 := h1
        rw [SM.bind_ok (h := e)] at h
        simp only at h
        obtain ⟨-, -, -, -, -, i, fs3, hi, ho3, -, -, h3, -⟩ :=
          C75_success (loggedDev_spec hv.toVolumeSpec) c (w, l) _ fs fs1 hG ho n _ e
        obtain ⟨hinv, -⟩ := Ext4File.open_inv (G := fun w => G w) (w := w1) hG1 ho3 h3 (fun _ => True) trivial
        have hb : f.blockSize = .ok (blockSizeOf (sbOf c)) := Ext4File.blockSize_eq hinv.opened
        have hl : (SM.lift f.blockSize : SM ((W × List Asked) × Ext4Fs D) Nat) ((w1, l ++ log), fs1) =
            (((w1, l ++ log), fs1), .ok (blockSizeOf (sbOf c))) := by
          rw [SM.lift_apply, hb]
        rw [SM.bind_ok (h := hl)] at h
        have a4 := a3 rounds hr
        rw [follow, SM.bind_ok (h := a1)] at a4
        simp only at a4
        have hl2 : (SM.lift f2.blockSize : SM (Unit × Ext4Fs InMemory) Nat) (u2, fs2') =
            ((u2, fs2'), .ok (blockSizeOf (sbOf c))) := by
          rw [SM.lift_apply, ← h1.blockSize, hb]
        rw [SM.bind_ok (h := hl2)] at a4
        rcases g2 : readBlocks InMemory.streamDev rounds (blockSizeOf (sbOf c)) rounds (u2, f2) with ⟨⟨v2, k2⟩, q2⟩
        have g2' := onHandle_eq fs2' g2
        obtain ⟨o, rfl⟩ : ∃ o, q2 = .ok (some o) := by
          rcases q2 with (_ | o) | x | _
          · rw [SM.bind_ok (h := g2')] at a4; cases a4
          · exact ⟨o, rfl⟩
          · rw [SM.bind_err (h := g2')] at a4; cases a4
          · rw [SM.bind_panic (h := g2')] at a4; cases a4
        rcases g1 : readBlocks (loggedDev dev) rounds (blockSizeOf (sbOf c)) rounds ((w1, l ++ log), f) with
          ⟨⟨⟨w3, l3⟩, k1⟩, q1⟩
        have g1' := onHandle_eq fs1 g1
        have hq := readBlocks_pair hv hlim g2 hG1 h1 g1
        obtain ⟨order, ys, rest, m1, m2, m3⟩ := readBlocks_asked hv.toVolumeSpec hc hG ho hf e g1
          (by rcases hq with rfl | ⟨x, rfl⟩ <;> exact fun h => (by cases h))
          (by rcases hq with rfl | ⟨x, rfl⟩ <;> exact fun h => (by cases h))
        have m1 : l3 = l ++ log ++ rest := m1
        rcases hq with rfl | ⟨x, rfl⟩
        · rw [SM.bind_ok (h := g1')] at h
          cases h
          have m3 := m3 ⟨_, rfl⟩
          subst m3
          exact ⟨true, log ++ rest, by rw [← List.append_assoc]; exact m1,
            .file n log rest ys hf.type hlog m2, fun _ => rfl⟩
        · rw [SM.bind_err (h := g1')] at h
          cases h
          exact ⟨false, log ++ rest, by rw [← List.append_assoc]; exact m1, .blocks n [] log rest order ys hlog m2,
            fun ⟨_, h⟩ => (by cases h)⟩
    · rw [SM.bind_err (h := e)] at h
      cases h
      exact ⟨false, log, rfl, hlog _, fun ⟨_, h⟩ => (by cases h)⟩
  | notAFile n h1 h2 h3 =>
    intro fs2 ho2
    obtain ⟨u2, fs2', r2, a1, -, ho2', -, -, a4, -, a0⟩ :=
      C75_outcome InMemory.volumeSpec c hc () fs2 trivial ho2 n h1
    obtain ⟨x2, rfl, hx2⟩ : ∃ x2, r2 = .ok x2 ∧ ∀ f, x2 ≠ .regularFile f := by
      by_cases t4 : typeNumber c n = 4
      · obtain ⟨d, rfl⟩ := a4 t4 (h3 t4).2 (h3 t4).1
        exact ⟨_, rfl, fun f h => (by cases h)⟩
      · exact ⟨_, a0 h2 t4, fun f h => (by cases h)⟩
    refine ⟨0, fun rounds hr {W D F lim dev G Is At} hv hlim w l fs hG ho hfs s r h => ?_⟩
    rw [follow] at h
    rcases open_step (l := l) hv hlim a1 hG ho hfs with ⟨w1, fs1, x1, log, e, hG1, ho1, hfs1, k1, hlog⟩ | ⟨w1, fs1, x, log, e, hlog⟩
    · have hend : s.1.2 = l ++ log := by
        rw [SM.bind_ok (h := e)] at h
        match x1, x2, k1, hx2 with
        | .directory _, .directory _, _, _ => cases h; rfl
        | .unsupported _, .unsupported _, _, _ => cases h; rfl
        | .regularFile _, .regularFile f, _, hx2 => exact absurd rfl (hx2 f)
      exact ⟨true, log, hend, .other n [] log hlog (fun h => absurd rfl h) (fun _ => h2), fun _ => rfl⟩
    · rw [SM.bind_err (h := e)] at h
      cases h
      exact ⟨false, log, rfl, hlog _, fun ⟨_, h⟩ => (by cases h)⟩
  | notADirectory n name names h1 h2 h3 =>
    intro fs2 ho2
    obtain ⟨u2, fs2', r2, a1, -, ho2', a8, -, -, -, a0⟩ :=
      C75_outcome InMemory.volumeSpec c hc () fs2 trivial ho2 n h1
    obtain ⟨x2, rfl, hx2⟩ : ∃ x2, r2 = .ok x2 ∧ ∀ f, x2 ≠ .directory f := by
      by_cases t8 : typeNumber c n = 8
      · obtain ⟨d, rfl⟩ := a8 t8 (h3 t8)
        exact ⟨_, rfl, fun f h => (by cases h)⟩
      · exact ⟨_, a0 t8 h2, fun f h => (by cases h)⟩
    refine ⟨0, fun rounds hr {W D F lim dev G Is At} hv hlim w l fs hG ho hfs s r h => ?_⟩
    rw [follow] at h
    rcases open_step (l := l) hv hlim a1 hG ho hfs with ⟨w1, fs1, x1, log, e, hG1, ho1, hfs1, k1, hlog⟩ | ⟨w1, fs1, x, log, e, hlog⟩
    · have hend : s.1.2 = l ++ log := by
        rw [SM.bind_ok (h := e)] at h
        match x1, x2, k1, hx2 with
        | .directory _, .directory f, _, hx2 => exact absurd rfl (hx2 f)
        | .unsupported _, .unsupported _, _, _ => cases h; rfl
        | .regularFile _, .regularFile _, _, _ => cases h; rfl
      exact ⟨true, log, hend, .other n _ log hlog (fun _ => h2) (fun h => (by cases h)), fun _ => rfl⟩
    · rw [SM.bind_err (h := e)] at h
      cases h
      exact ⟨false, log, rfl, hlog _, fun ⟨_, h⟩ => (by cases h)⟩
  | missing n name names records hd hcl hno =>
    intro fs2 ho2
    obtain ⟨u2, fs2', d2, i, a1, ho2', hleft⟩ := directory_left InMemory.volumeSpec hc (w := ()) trivial ho2 hd
    have hrec := directory_record hd
    obtain ⟨⟨u3, d3⟩, N, -, a3⟩ := lookUp_missing InMemory.volumeSpec hc (name := name) (records.map DirEntry.mk)
      (u2, d2) (fun x hx => by
        obtain ⟨y, hy, rfl⟩ := List.mem_map.1 hx
        rw [wanted_iff (hrec y hy) (hcl y hy)]
        exact hno y hy) (by rw [List.map_map]; exact hleft)
    refine ⟨N + records.length + 1, fun rounds hr {W D F lim dev G Is At} hv hlim w l fs hG ho hfs s r h => ?_⟩
    have a4 := a3 rounds (by omega) rounds (by rw [List.length_map]; omega)
    rw [follow] at h
    rcases open_step (l := l) hv hlim a1 hG ho hfs with ⟨w1, fs1, x1, log, e, hG1, ho1, hfs1, h1, hlog⟩ | ⟨w1, fs1, x, log, e, hlog⟩
    · match x1, h1, e with
      | .directory d, h1, e =>
        have h1 : Ext4Sim.Dr Is Mem c d d2 := h1
        rw [SM.bind_ok (h := e)] at h
        simp only at h
        rcases g1 : lookUp (loggedDev dev) rounds name rounds ((w1, l ++ log), d) with ⟨⟨⟨w3, l3⟩, k1⟩, q1⟩
        have g1' := onHandle_eq fs1 g1
        have hq := lookUp_pair hv hlim a4 hG1 h1 g1
        obtain ⟨order, ys, rest, m1, m2, m3, m4⟩ := lookUp_asked hv.toVolumeSpec hc hG ho hd e g1
          (by rcases hq with ⟨rfl, -⟩ | ⟨x, rfl⟩ <;> exact fun h => (by cases h))
          (by rcases hq with ⟨rfl, -⟩ | ⟨x, rfl⟩ <;> exact fun h => (by cases h))
        have m1 : l3 = l ++ log ++ rest := m1
        rcases hq with ⟨rfl, -⟩ | ⟨x, rfl⟩
        · rw [SM.bind_ok (h := g1')] at h
          cases h
          have m4 := m4 rfl
          subst m4
          exact ⟨true, log ++ rest, by rw [← List.append_assoc]; exact m1,
            .missing n name names log rest ys records hlog m2 hd hno, fun _ => rfl⟩
        · rw [SM.bind_err (h := g1')] at h
          cases h
          exact ⟨false, log ++ rest, by rw [← List.append_assoc]; exact m1, .blocks n _ log rest order ys hlog m2,
            fun ⟨_, h⟩ => (by cases h)⟩
    · rw [SM.bind_err (h := e)] at h
      cases h
      exact ⟨false, log, rfl, hlog _, fun ⟨_, h⟩ => (by cases h)⟩
  | into n name names before after e0 hd hn hb hcl _ ih =>
    intro fs2 ho2
    obtain ⟨u2, fs2', d2, i, a1, ho2', hleft⟩ := directory_left InMemory.volumeSpec hc (w := ()) trivial ho2 hd
    have hrec := directory_record hd
    have hw : ∀ x ∈ before ++ [e0], (Wanted name ⟨x⟩ ↔ Names name x) := fun x hx =>
      wanted_iff (hrec x (by
        rcases List.mem_append.1 hx with h | h
        · exact List.mem_append_left _ h
        · rw [List.mem_singleton] at h; subst h; simp)) (hcl x hx)
    have hleft : Ext4Directory.Left Mem (fun _ => True) c i (u2, d2) (((before.map DirEntry.mk).map fun x => .ok (some x)) ++
        .ok (some ⟨e0⟩) :: after.map fun e => .ok (some ⟨e⟩)) := by
      rw [List.map_map]
      rw [List.map_append, List.map_cons] at hleft
      exact hleft
    obtain ⟨⟨u3, d3⟩, N1, -, a3⟩ := lookUp_found InMemory.volumeSpec hc
      ((hw e0 (by simp)).2 hn) _ (before.map DirEntry.mk) (u2, d2) (fun x hx => by
        obtain ⟨y, hy, rfl⟩ := List.mem_map.1 hx
        rw [hw y (List.mem_append_left _ hy)]
        exact hb y hy) hleft
    rw [entry_inode] at a3
    obtain ⟨N2, ih⟩ := ih fs2' ho2'
    refine ⟨N1 + before.length + 1 + N2, fun rounds hr {W D F lim dev G Is At} hv hlim w l fs hG ho hfs s r h => ?_⟩
    have a4 := a3 rounds (by omega) rounds (by rw [List.length_map]; omega)
    rcases open_step (l := l) hv hlim a1 hG ho hfs with ⟨w1, fs1, x1, log, e, hG1, ho1, hfs1, h1, hlog⟩ | ⟨w1, fs1, x, log, e, hlog⟩
    · match x1, h1, e with
      | .directory d, h1, e =>
        have h1 : Ext4Sim.Dr Is Mem c d d2 := h1
        rcases g1 : lookUp (loggedDev dev) rounds name rounds ((w1, l ++ log), d) with ⟨⟨⟨w3, l3⟩, k1⟩, q1⟩
        have g1' := onHandle_eq fs1 g1
        have hq := lookUp_pair hv hlim a4 hG1 h1 g1
        obtain ⟨order, ys, blocks, m1, m2, m3, m4⟩ := lookUp_asked hv.toVolumeSpec hc hG ho hd e g1
          (by rcases hq with ⟨rfl, -⟩ | ⟨x, rfl⟩ <;> exact fun h => (by cases h))
          (by rcases hq with ⟨rfl, -⟩ | ⟨x, rfl⟩ <;> exact fun h => (by cases h))
        have m1 : l3 = l ++ log ++ blocks := m1
        subst m1
        rcases hq with ⟨rfl, hG3⟩ | ⟨x, rfl⟩
        · rw [follow_into e g1] at h
          obtain ⟨whole, rest, p1, p2, p3⟩ := ih rounds (by omega) hv hlim w3 _ fs1 hG3 ho1 hfs1 s r h
          obtain ⟨t, hist, f1, f2, f3⟩ := lookUp_record (loggedDev_seekable hv) hlim hc ((hw e0 (by simp)).2 hn) _
            (before.map DirEntry.mk) rounds ((w1, l ++ log), d) (u2, d2) ⟨⟨hG1, trivial⟩, h1⟩ (fun x hx => by
              obtain ⟨y, hy, rfl⟩ := List.mem_map.1 hx
              rw [hw y (List.mem_append_left _ hy)]
              exact hb y hy) hleft _ _ g1 _ [] (.nil _) (fun x hx => by cases hx)
          obtain ⟨order', front, x, blocks', j1, j2, j3, j4⟩ := found_asked hv.toVolumeSpec hc hG ho hd e f1 f2 f3
          obtain rfl : blocks = blocks' := List.append_cancel_left j1
          refine ⟨whole, log ++ blocks ++ rest, by rw [p1]; simp only [List.append_assoc],
            .into n name names log blocks rest order' front x before after e0 whole hlog j2 j3 j4 hd hn hb p2, p3⟩
        · rw [follow, SM.bind_ok (h := e)] at h
          simp only at h
          rw [SM.bind_err (h := g1')] at h
          cases h
          exact ⟨false, log ++ blocks, by rw [← List.append_assoc],
            .blocks n _ log blocks order ys hlog m2, fun ⟨_, h⟩ => (by cases h)⟩
    · rw [follow, SM.bind_err (h := e)] at h
      cases h
      exact ⟨false, log, rfl, hlog _, fun ⟨_, h⟩ => (by cases h)⟩

end MdRecover
