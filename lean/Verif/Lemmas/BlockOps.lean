import Verif.Spec.BlockOps
import Verif.Model.StreamDevice
import Verif.Lemmas.ReaderRun

/-! Running sequences of operations on readers, as byte streams and as block devices. -/

namespace MdRecover
open MdSpec

/-- Executes one operation on a collection of readers over a device. -/
def runBlockOp {W D : Type} (dev : BlockDev W D) (op : BlockOp) (w : W) (rs : List (Reader D)) :
    W × List (Reader D) × BlockOut :=
  match op with
  | .stream op => ((runReaderOp dev op w rs).1, (runReaderOp dev op w rs).2.1, .stream (runReaderOp dev op w rs).2.2)
  | .blockSize i =>
    match rs[i]? with
    | none => (w, rs, .stream .noSuchReader)
    | some r =>
      match (Reader.streamDev dev).blockSize r w with
      | (w', .ok n) => (w', rs, .number n)
      | (w', .err e) => (w', rs, .stream (.error e))
      | (w', .panic) => (w', rs, .stream .panicked)
  | .blockCount i =>
    match rs[i]? with
    | none => (w, rs, .stream .noSuchReader)
    | some r =>
      match (Reader.streamDev dev).blockCount r w with
      | (w', .ok n) => (w', rs, .number n)
      | (w', .err e) => (w', rs, .stream (.error e))
      | (w', .panic) => (w', rs, .stream .panicked)
  | .readBlock i b buf =>
    match rs[i]? with
    | none => (w, rs, .stream .noSuchReader)
    | some r =>
      match (Reader.streamDev dev).readBlock b buf (w, r) with
      | ((w', r'), .ok (k, buf')) => (w', rs.set i r', .stream (.data k buf'))
      | ((w', r'), .err e) => (w', rs.set i r', .stream (.error e))
      | ((w', r'), .panic) => (w', rs.set i r', .stream .panicked)

/-- Executes a sequence of operations. -/
def runBlockOps {W D : Type} (dev : BlockDev W D) :
    List BlockOp → W → List (Reader D) → W × List (Reader D) × List BlockOut
  | [], w, rs => (w, rs, [])
  | op :: ops, w, rs =>
    let (w', rs', o) := runBlockOp dev op w rs
    let (w'', rs'', os) := runBlockOps dev ops w' rs'
    (w'', rs'', o :: os)

/-- A reader of a disk answers block calls as the disk. -/
theorem Reader.devSpec {W D : Type} {F : Prop} {dev : BlockDev W D} {G : W → Prop} {Is : D → Disk → Prop}
    (hd : DevSpec F dev G Is) (b y : Nat) :
    DevSpec F (Reader.streamDev dev).toBlockDev G
      (fun r k => Is r.device k ∧ r.blockPos = b ∧ r.bytePos = y) where
  wf h := hd.wf h.1
  blockSize hG h := hd.blockSize hG h.1
  blockCount hG h := hd.blockCount hG h.1
  readBlock hG h n buf hn hb := by
    obtain ⟨g1, g2, g3⟩ := hd.readBlock hG h.1 n buf hn hb
    exact ⟨g1, ⟨g2, h.2⟩, g3⟩
  tryClone {w r k} hG h := by
    obtain ⟨g1, g2⟩ := hd.tryClone hG h.1
    show G (Reader.tryClone dev r w).1 ∧ _
    rcases ht : dev.tryClone r.device w with ⟨w', x⟩
    rw [ht] at g1 g2
    rcases g2 with ⟨d', rfl, h'⟩ | ⟨hF, e, rfl⟩
    · have e1 : Reader.tryClone dev r w = (w', .ok { r with device := d' }) := by
        rw [Reader.tryClone, SM.bind_ok (h := ht)]
        rfl
      exact ⟨by rw [e1]; exact g1, .inl ⟨{ r with device := d' }, congrArg Prod.snd e1, h', h.2⟩⟩
    · have e1 : Reader.tryClone dev r w = (w', .err e) := SM.bind_err (h := ht) _
      exact ⟨by rw [e1]; exact g1, .inr ⟨hF, e, congrArg Prod.snd e1⟩⟩

theorem runBlockOp_spec {W D : Type} {F : Prop} {dev : BlockDev W D} {G : W → Prop}
    {Is : D → Disk → Prop} (hd : DevSpec F dev G Is) {k : Disk} {op : BlockOp}
    (hop : op.wellTyped k) {w : W} (hG : G w) {rs : List (Reader D)} {ps : List Nat}
    (hat : AllAt Is k rs ps) :
    G (runBlockOp dev op w rs).1 ∧ ∃ ps', AllAt Is k (runBlockOp dev op w rs).2.1 ps' ∧
      BlockStep F k ps op (runBlockOp dev op w rs).2.2 ps' := by
  cases op with
  | stream op =>
    obtain ⟨h1, ps', h2, h3⟩ := runReaderOp_spec hd hop hG hat
    exact ⟨h1, ps', h2, .stream h3⟩
  | blockSize i =>
    cases hi : rs[i]? with
    | none =>
      simp only [runBlockOp, hi]
      exact ⟨hG, ps, hat, .sizeNone (hat.none hi)⟩
    | some r =>
      obtain ⟨p, hp, hrp⟩ := hat.some hi
      obtain ⟨h1, h2⟩ := (Reader.devSpec hd r.blockPos r.bytePos).blockSize hG ⟨hrp.is, rfl, rfl⟩
      simp only [runBlockOp, hi]
      generalize (Reader.streamDev dev).blockSize r w = x at h1 h2
      obtain ⟨w', x⟩ := x
      rcases h2 with h2 | ⟨hF, e, h2⟩ <;> (simp only at h2; subst h2)
      · exact ⟨h1, ps, hat, .blockSize hp⟩
      · exact ⟨h1, ps, hat, .fails hF⟩
  | blockCount i =>
    cases hi : rs[i]? with
    | none =>
      simp only [runBlockOp, hi]
      exact ⟨hG, ps, hat, .countNone (hat.none hi)⟩
    | some r =>
      obtain ⟨p, hp, hrp⟩ := hat.some hi
      obtain ⟨h1, h2⟩ := (Reader.devSpec hd r.blockPos r.bytePos).blockCount hG ⟨hrp.is, rfl, rfl⟩
      simp only [runBlockOp, hi]
      generalize (Reader.streamDev dev).blockCount r w = x at h1 h2
      obtain ⟨w', x⟩ := x
      rcases h2 with h2 | ⟨hF, e, h2⟩ <;> (simp only at h2; subst h2)
      · exact ⟨h1, ps, hat, .blockCount hp⟩
      · exact ⟨h1, ps, hat, .fails hF⟩
  | readBlock i b buf =>
    cases hi : rs[i]? with
    | none =>
      simp only [runBlockOp, hi]
      exact ⟨hG, ps, hat, .readNone (hat.none hi)⟩
    | some r =>
      obtain ⟨p, hp, hrp⟩ := hat.some hi
      obtain ⟨h1, h3, h2⟩ := (Reader.devSpec hd r.blockPos r.bytePos).readBlock hG ⟨hrp.is, rfl, rfl⟩ b buf hop.1 hop.2
      simp only [runBlockOp, hi]
      generalize (Reader.streamDev dev).readBlock b buf (w, r) = x at h1 h2 h3
      obtain ⟨⟨w', r'⟩, x⟩ := x
      have hr' : Reader.At Is k r' p :=
        ⟨h3.1, by rw [hrp.pos_eq]; simp only at h3; rw [h3.2.1, h3.2.2], by
          simp only at h3; rw [h3.2.2]; exact hrp.byte_lt, hrp.pos_lt⟩
      have hat' := hat.set (i := i) hr'
      rw [set_self hp] at hat'
      rcases h2 with h2 | ⟨hF, e, h2⟩ <;> (simp only at h2; subst h2)
      · exact ⟨h1, ps, hat', .readBlock hp⟩
      · exact ⟨h1, ps, hat', .fails hF⟩

end MdRecover
