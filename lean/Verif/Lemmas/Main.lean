import Verif.Lemmas.Native
import Verif.Spec.Main

namespace MdRecover
open MdSpec

/-- How opening one path may end. -/
def OpensAs (F : Prop) (fs : Bytes → Except Nat OsFile) (path : Bytes) (m : MdDevice NativeDev) : Prop :=
  ∃ f, fs path = .ok f ∧ f.physical.isSome ∧
    NativeDev.IsDisk m.device (asDisk f) ∧
    (Expected (wholeBlocks f) m.superblock ∨ (F ∧ 12288 ≤ (wholeBlocks f).length ∧
      (m.superblock = .missing ∨ Genuine (wholeBlocks f) m.superblock)))

def FailsAs (F : Prop) (fs : Bytes → Except Nat OsFile) (path : Bytes) (e : ErrKind) : Prop :=
  F ∨ unusable fs path = some e

/-- How opening the paths may end, with the counter of ids at `i`. -/
inductive OpenedAs (F : Prop) (fs : Bytes → Except Nat OsFile) :
    Nat → List Bytes → List (Except (Bytes × ErrKind) (MdDevice NativeDev)) → Prop
  | nil {i} : OpenedAs F fs i [] []
  | fail {i i' path e ps rs} : FailsAs F fs path e → (∀ c, fs path = .error c → e = .os c) →
      OpenedAs F fs i' ps rs → OpenedAs F fs i (path :: ps) (.error (path, e) :: rs)
  | ok {i path m ps rs} : OpensAs F fs path m → m.id = ⟨i, some path⟩ → OpenedAs F fs (i + 1) ps rs →
      OpenedAs F fs i (path :: ps) (.ok m :: rs)

section
variable (F : Prop) (G : NativeKernel → Prop) (hG : ∀ w w', G w → NativeDev.Later w' w → G w')
  (hFr : ∀ w c, G w → ReadEvent.fail c ∈ w.files.schedule → F)
  (hFi : ∀ w c, G w → some c ∈ w.ioctls → F)
include hG hFr hFi

theorem deviceSize_notBlock {w : NativeKernel} {d : NativeDev} (hw : G w) (hd : d.physical = none) :
    ∃ w' e, G w' ∧ (F ∨ e = .os 25) ∧
      MdDevice.deviceSize NativeDev.streamDev (w, d) = ((w', d), .err e) := by
  obtain ⟨w1, h1, h2, h3⟩ := NativeDev.ioctl_spec (d.physical.map fun _ => d.content.length) w
  have hw1 : G w1 := hG _ _ hw ⟨by rw [h1]; exact fun _ h => h, h2⟩
  have hcount : ∀ e, NativeDev.ioctl (d.physical.map fun _ => d.content.length) w = (w1, .err e) →
      MdDevice.deviceSize NativeDev.streamDev (w, d) = ((w1, d), .err e) := by
    intro e h
    unfold MdDevice.deviceSize
    rw [SM.bind_ok (h := SM.get_apply _)]
    refine SM.bind_err (s' := (w1, d)) (h := ?_) _
    have : NativeDev.blockCount d w = (w1, .err e) := SM.bind_err (h := h) _
    simp only [SM.zoom, NativeDev.streamDev, this]
  rcases h3 with h3 | ⟨c, hc, h3⟩
  · rw [hd] at h3 hcount
    exact ⟨w1, _, hw1, .inr rfl, hcount _ h3⟩
  · exact ⟨w1, _, hw1, .inl (hFi _ _ hw hc), hcount _ h3⟩

theorem openPath_spec (fs : Bytes → Except Nat OsFile) (path : Bytes) (s : System) (hs : G s.os)
    (hi : s.nextId < U64 - 1) (hsane : ∀ f, fs path = .ok f → Sane f) :
    ∃ s', G s'.os ∧ s'.nextId ≤ s.nextId + 1 ∧
      ((∃ e, MdDevice.openPath fs path s = (s', .err e) ∧ FailsAs F fs path e ∧
          ∀ c, fs path = .error c → e = .os c) ∨
       (∃ m, MdDevice.openPath fs path s = (s', .ok m) ∧ OpensAs F fs path m ∧
          m.id = ⟨s.nextId, some path⟩ ∧ s'.nextId = s.nextId + 1)) := by
  unfold MdDevice.openPath
  rcases hf : fs path with c | f
  · refine ⟨s, hs, by omega, .inl ⟨.os c, ?_, .inr (by simp [unusable, hf]), ?_⟩⟩
    · exact SM.bind_err (h := by simp only [NativeDev.openPath, hf]) _
    · intro c' h; cases h; rfl
  · obtain ⟨s1, d, h1, hs1, hd, hid⟩ : ∃ s1 d, NativeDev.openPath fs path s = (s1, .ok d) ∧ G s1.os ∧
        (d.content = f.content ∧ d.physical = f.physical) ∧ s1.nextId = s.nextId := by
      simp only [NativeDev.openPath, hf]
      refine ⟨_, _, rfl, hG _ _ hs ⟨?_, ?_⟩, ⟨rfl, rfl⟩, rfl⟩ <;> exact fun _ h => h
    rw [SM.bind_ok (h := h1)]
    rcases hp : f.physical with _ | bs
    · obtain ⟨w', e, hw', he, h⟩ := deviceSize_notBlock F G hG hFr hFi hs1 (hd.2.trans hp)
      have hfb : MdDevice.fromBlockDevice NativeDev.streamDev (some path) ((s1.os, d), s1.nextId) =
          (((w', d), s1.nextId), .err e) := by
        unfold MdDevice.fromBlockDevice
        exact SM.bind_err (s' := ((w', d), s1.nextId)) (h := by simp only [SM.zoom, h]) _
      refine ⟨{ s1 with os := w' }, hw', by simp only; omega, .inl ⟨e, ?_, ?_, fun c h => by cases h⟩⟩
      · simp only [SM.zoom, hfb]
      · rcases he with he | he
        · exact .inl he
        · exact .inr (by simp [unusable, hf, hp, he])
    · obtain ⟨g0, g1, g2⟩ := hsane f hf bs hp
      have hst := d.isStream_of (hd.2.trans hp) g0 g1 (by rw [hd.1]; exact g2)
      rw [hd.1] at hst
      have hwb : wholeBlocks f = f.content.take (f.content.length / bs * bs) := by
        simp only [wholeBlocks, hp]
      obtain ⟨w', d', i', hG', hI', hi', h⟩ := fromBlockDevice_spec
        (NativeDev.streamDevSpec_aux F G hG hFr hFi) hs1 hst (some path) (i := s1.nextId) (by omega)
      refine ⟨{ s1 with os := w', nextId := i' }, hG', by simp only; omega, ?_⟩
      rcases h with ⟨hF, e, h⟩ | ⟨sb, h, hi2, hc⟩
      · exact .inl ⟨e, by simp only [SM.zoom, h], .inl hF, fun c h => by cases h⟩
      · refine .inr ⟨_, by simp only [SM.zoom, h]; rfl, ⟨f, hf, by rw [hp]; rfl, ?_, ?_⟩, ?_, ?_⟩
        · rw [asDisk, hwb, hp]
          exact ⟨_, hI'⟩
        · rw [hwb]; exact hc
        · simp only [hid]
        · simp only; omega

theorem openPaths_spec (fs : Bytes → Except Nat OsFile) : ∀ (paths : List Bytes) (s : System), G s.os →
    s.nextId + paths.length < U64 → (∀ path ∈ paths, ∀ f, fs path = .ok f → Sane f) →
    ∃ s' rs, openPaths fs paths s = (s', .ok rs) ∧ G s'.os ∧ OpenedAs F fs s.nextId paths rs
  | [], s, hs, _, _ => ⟨s, [], rfl, hs, .nil⟩
  | path :: ps, s, hs, hi, hsane => by
    rw [List.length_cons] at hi
    obtain ⟨s1, hs1, hi1, h⟩ := openPath_spec F G hG hFr hFi fs path s hs (by omega)
      (hsane path List.mem_cons_self)
    obtain ⟨s2, rs, h2, hs2, ho⟩ := openPaths_spec fs ps s1 hs1 (by omega)
      (fun p hp => hsane p (List.mem_cons_of_mem _ hp))
    unfold openPaths
    rcases h with ⟨e, h, hf, hc⟩ | ⟨m, h, ho1, hid, hn⟩
    · refine ⟨s2, .error (path, e) :: rs, ?_, hs2, .fail hf hc ho⟩
      rw [SM.bind_ok (a := .error (path, e)) (s' := s1) (h := by simp only [SM.keepError, h]),
        SM.bind_ok (h := h2)]
      rfl
    · refine ⟨s2, .ok m :: rs, ?_, hs2, .ok ho1 hid (hn ▸ ho)⟩
      rw [SM.bind_ok (a := .ok m) (s' := s1) (h := by simp only [SM.keepError, h]),
        SM.bind_ok (h := h2)]
      rfl

end

/-- Without failures the errors are exactly the complaints. -/
theorem OpenedAs.errors_eq {fs : Bytes → Except Nat OsFile} {i : Nat} {paths : List Bytes}
    {rs : List (Except (Bytes × ErrKind) (MdDevice NativeDev))} (h : OpenedAs False fs i paths rs) :
    (partitionResult rs).2 = paths.filterMap (complaint fs) := by
  induction h with
  | nil => rfl
  | fail hf _ _ ih =>
    have hf := hf.resolve_left id
    rw [partitionResult, ih, List.filterMap_cons]
    simp only [complaint, hf, Option.map_some]
  | ok ho _ _ ih =>
    obtain ⟨f, hf, hp, _⟩ := ho
    rw [partitionResult, ih, List.filterMap_cons]
    simp only [complaint, unusable, hf, hp, if_true, Option.map_none]

/-- In any case the errors are for some of the paths, in order, ... -/
theorem OpenedAs.errors_sublist {F : Prop} {fs : Bytes → Except Nat OsFile} {i : Nat} {paths : List Bytes}
    {rs : List (Except (Bytes × ErrKind) (MdDevice NativeDev))} (h : OpenedAs F fs i paths rs) :
    ((partitionResult rs).2.map (·.1)).Sublist paths := by
  induction h with
  | nil => exact List.Sublist.refl _
  | fail _ _ _ ih => rw [partitionResult, List.map_cons]; exact ih.cons_cons _
  | ok _ _ _ ih => rw [partitionResult]; exact ih.cons _

/-- ... among them all that cannot be used, and with the code of `open` for those that cannot be opened. -/
theorem OpenedAs.errors_complete {F : Prop} {fs : Bytes → Except Nat OsFile} {i : Nat}
    {paths : List Bytes} {rs : List (Except (Bytes × ErrKind) (MdDevice NativeDev))}
    (h : OpenedAs F fs i paths rs) :
    (∀ path ∈ paths, unusable fs path ≠ none → path ∈ (partitionResult rs).2.map (·.1)) ∧
    (∀ path e c, (path, e) ∈ (partitionResult rs).2 → fs path = .error c → e = .os c) := by
  induction h with
  | nil => exact ⟨fun _ h => (List.not_mem_nil h).elim, fun _ _ _ h => (List.not_mem_nil h).elim⟩
  | @fail i i' path e ps rs hf hc _ ih =>
    rw [partitionResult]
    refine ⟨fun p hp hu => ?_, fun p e' c hp hfs => ?_⟩
    · rw [List.map_cons, List.mem_cons]
      rcases List.mem_cons.mp hp with rfl | hp
      · exact .inl rfl
      · exact .inr (ih.1 p hp hu)
    · rcases List.mem_cons.mp hp with h | hp
      · cases h; exact hc c hfs
      · exact ih.2 p e' c hp hfs
  | @ok i path m ps rs ho _ _ ih =>
    obtain ⟨f, hf, hp, _⟩ := ho
    rw [partitionResult]
    refine ⟨fun p hpp hu => ?_, ih.2⟩
    rcases List.mem_cons.mp hpp with rfl | hpp
    · exact absurd (by simp only [unusable, hf, hp, if_true]) hu
    · exact ih.1 p hpp hu

/-- If there are no errors, there is one device for each path. -/
theorem OpenedAs.opened {F : Prop} {fs : Bytes → Except Nat OsFile} {i : Nat} {paths : List Bytes}
    {rs : List (Except (Bytes × ErrKind) (MdDevice NativeDev))} (h : OpenedAs F fs i paths rs)
    (hne : (partitionResult rs).2 = []) :
    (partitionResult rs).1.length = paths.length ∧ ∀ j path, paths[j]? = some path →
      ∃ m, (partitionResult rs).1[j]? = some m ∧ OpensAs F fs path m ∧ m.id = ⟨i + j, some path⟩ := by
  induction h with
  | nil => exact ⟨rfl, fun j path h => by simp at h⟩
  | fail => rw [partitionResult] at hne; cases hne
  | @ok i path m ps rs ho hid _ ih =>
    rw [partitionResult] at hne ⊢
    obtain ⟨ih1, ih2⟩ := ih hne
    refine ⟨by simp only [List.length_cons, ih1], fun j p hj => ?_⟩
    cases j with
    | zero =>
      rw [List.getElem?_cons_zero, Option.some.injEq] at hj
      subst hj
      exact ⟨m, rfl, ho, hid⟩
    | succ j =>
      rw [List.getElem?_cons_succ] at hj
      obtain ⟨m', h1, h2, h3⟩ := ih2 j p hj
      exact ⟨m', by rw [List.getElem?_cons_succ]; exact h1, h2, by rw [h3]; congr 1; omega⟩

/-- If there are no errors, the devices are those at the paths. -/
theorem OpenedAs.members {F : Prop} {fs : Bytes → Except Nat OsFile} {i : Nat} {paths : List Bytes}
    {rs : List (Except (Bytes × ErrKind) (MdDevice NativeDev))} (h : OpenedAs F fs i paths rs)
    (hne : (partitionResult rs).2 = []) :
    Members (fun f sb => Expected (wholeBlocks f) sb ∨
        (F ∧ 12288 ≤ (wholeBlocks f).length ∧ (sb = .missing ∨ Genuine (wholeBlocks f) sb)))
      fs i paths (partitionResult rs).1 := by
  obtain ⟨h1, h2⟩ := h.opened hne
  refine ⟨h1, fun j p hj => ?_⟩
  obtain ⟨m, g1, ⟨f, hf, hp, -, hc⟩, g3⟩ := h2 j p hj
  exact ⟨m, f, g1, hf, hp, g3, hc⟩

end MdRecover
