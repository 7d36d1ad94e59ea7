import Verif.Lemmas.Bytes
import Verif.Spec.MdOnDisk

/-! Where the members of an encoded superblock are. -/

namespace MdSpec
open MdRecover

namespace Mdp1
variable {m : Mdp1} (h : m.Wf)
include h

theorem slice_magic : slice m.encode 0 4 = leBytes 4 m.magic := by
  refine slice_flatten 0 _ _ rfl ?_ ?_ <;> simp [h.set_uuid, h.set_name, h.device_uuid]

theorem slice_major_version : slice m.encode 4 4 = leBytes 4 m.major_version := by
  refine slice_flatten 1 _ _ rfl ?_ ?_ <;> simp [h.set_uuid, h.set_name, h.device_uuid]

theorem slice_feature_map : slice m.encode 8 4 = leBytes 4 m.feature_map := by
  refine slice_flatten 2 _ _ rfl ?_ ?_ <;> simp [h.set_uuid, h.set_name, h.device_uuid]

theorem slice_set_uuid : slice m.encode 16 16 = m.set_uuid := by
  refine slice_flatten 4 _ _ rfl ?_ ?_ <;> simp [h.set_uuid, h.set_name, h.device_uuid]

theorem slice_set_name : slice m.encode 32 32 = m.set_name := by
  refine slice_flatten 5 _ _ rfl ?_ ?_ <;> simp [h.set_uuid, h.set_name, h.device_uuid]

theorem slice_level : slice m.encode 72 4 = leBytes 4 m.level := by
  refine slice_flatten 7 _ _ rfl ?_ ?_ <;> simp [h.set_uuid, h.set_name, h.device_uuid]

theorem slice_layout : slice m.encode 76 4 = leBytes 4 m.layout := by
  refine slice_flatten 8 _ _ rfl ?_ ?_ <;> simp [h.set_uuid, h.set_name, h.device_uuid]

theorem slice_size : slice m.encode 80 8 = leBytes 8 m.size := by
  refine slice_flatten 9 _ _ rfl ?_ ?_ <;> simp [h.set_uuid, h.set_name, h.device_uuid]

theorem slice_chunksize : slice m.encode 88 4 = leBytes 4 m.chunksize := by
  refine slice_flatten 10 _ _ rfl ?_ ?_ <;> simp [h.set_uuid, h.set_name, h.device_uuid]

theorem slice_raid_disks : slice m.encode 92 4 = leBytes 4 m.raid_disks := by
  refine slice_flatten 11 _ _ rfl ?_ ?_ <;> simp [h.set_uuid, h.set_name, h.device_uuid]

theorem slice_bitmap_offset : slice m.encode 96 4 = leBytes 4 m.bitmap_offset := by
  refine slice_flatten 12 _ _ rfl ?_ ?_ <;> simp [h.set_uuid, h.set_name, h.device_uuid]

theorem slice_new_level : slice m.encode 100 4 = leBytes 4 m.new_level := by
  refine slice_flatten 13 _ _ rfl ?_ ?_ <;> simp [h.set_uuid, h.set_name, h.device_uuid]

theorem slice_reshape_position : slice m.encode 104 8 = leBytes 8 m.reshape_position := by
  refine slice_flatten 14 _ _ rfl ?_ ?_ <;> simp [h.set_uuid, h.set_name, h.device_uuid]

theorem slice_delta_disks : slice m.encode 112 4 = leBytes 4 m.delta_disks := by
  refine slice_flatten 15 _ _ rfl ?_ ?_ <;> simp [h.set_uuid, h.set_name, h.device_uuid]

theorem slice_new_layout : slice m.encode 116 4 = leBytes 4 m.new_layout := by
  refine slice_flatten 16 _ _ rfl ?_ ?_ <;> simp [h.set_uuid, h.set_name, h.device_uuid]

theorem slice_new_chunk : slice m.encode 120 4 = leBytes 4 m.new_chunk := by
  refine slice_flatten 17 _ _ rfl ?_ ?_ <;> simp [h.set_uuid, h.set_name, h.device_uuid]

theorem slice_new_offset : slice m.encode 124 4 = leBytes 4 m.new_offset := by
  refine slice_flatten 18 _ _ rfl ?_ ?_ <;> simp [h.set_uuid, h.set_name, h.device_uuid]

theorem slice_data_offset : slice m.encode 128 8 = leBytes 8 m.data_offset := by
  refine slice_flatten 19 _ _ rfl ?_ ?_ <;> simp [h.set_uuid, h.set_name, h.device_uuid]

theorem slice_recovery_offset : slice m.encode 152 8 = leBytes 8 m.recovery_offset := by
  refine slice_flatten 22 _ _ rfl ?_ ?_ <;> simp [h.set_uuid, h.set_name, h.device_uuid]

theorem slice_dev_number : slice m.encode 160 4 = leBytes 4 m.dev_number := by
  refine slice_flatten 23 _ _ rfl ?_ ?_ <;> simp [h.set_uuid, h.set_name, h.device_uuid]

theorem slice_events : slice m.encode 200 8 = leBytes 8 m.events := by
  refine slice_flatten 31 _ _ rfl ?_ ?_ <;> simp [h.set_uuid, h.set_name, h.device_uuid]

theorem slice_max_dev : slice m.encode 220 4 = leBytes 4 m.max_dev := by
  refine slice_flatten 34 _ _ rfl ?_ ?_ <;> simp [h.set_uuid, h.set_name, h.device_uuid]


theorem drop_roles : m.encode.drop 256 = (m.dev_roles.map (leBytes 2)).flatten := by
  refine (drop_flatten 36 _ ?_).trans (by simp)
  simp [h.set_uuid, h.set_name, h.device_uuid, h.pad3]

theorem length_encode : m.encode.length = 4096 := by
  have h1 : ((m.dev_roles.map (leBytes 2)).flatten).length = 3840 := by
    rw [length_flatten_uniform (w := 2) (by
      intro c hc
      obtain ⟨r, _, rfl⟩ := List.mem_map.mp hc
      exact leBytes_length _ _), List.length_map, h.roles_length]
  have h2 := congrArg List.length (drop_roles h)
  rw [List.length_drop, h1] at h2
  omega

end Mdp1

namespace MdpDisk
variable {d : MdpDisk} {enc : Nat → Nat → Bytes} (henc : ∀ n v, (enc n v).length = n) (h : d.Wf)
include henc h

theorem length_encode : (d.encode enc).length = 128 := by
  simp [MdpDisk.encode, henc, h.reserved]

theorem slice_number : slice (d.encode enc) 0 4 = enc 4 d.number := by
  refine slice_flatten 0 _ _ rfl ?_ ?_ <;> simp [henc]

theorem slice_raid_disk : slice (d.encode enc) 12 4 = enc 4 d.raid_disk := by
  refine slice_flatten 3 _ _ rfl ?_ ?_ <;> simp [henc]

end MdpDisk

namespace Mdp0
variable {m : Mdp0} {enc : Nat → Nat → Bytes} (henc : ∀ n v, (enc n v).length = n) (h : m.Wf)
include henc h

theorem slice_md_magic : slice (m.encode enc) 0 4 = enc 4 m.md_magic := by
  refine slice_flatten 0 _ _ rfl ?_ ?_ <;>
    simp [henc, h.gstate_creserved, h.gstate_sreserved, h.pstate_reserved]

theorem slice_major_version : slice (m.encode enc) 4 4 = enc 4 m.major_version := by
  refine slice_flatten 1 _ _ rfl ?_ ?_ <;>
    simp [henc, h.gstate_creserved, h.gstate_sreserved, h.pstate_reserved]

theorem slice_minor_version : slice (m.encode enc) 8 4 = enc 4 m.minor_version := by
  refine slice_flatten 2 _ _ rfl ?_ ?_ <;>
    simp [henc, h.gstate_creserved, h.gstate_sreserved, h.pstate_reserved]

theorem slice_set_uuid0 : slice (m.encode enc) 20 4 = enc 4 m.set_uuid0 := by
  refine slice_flatten 5 _ _ rfl ?_ ?_ <;>
    simp [henc, h.gstate_creserved, h.gstate_sreserved, h.pstate_reserved]

theorem slice_level : slice (m.encode enc) 28 4 = enc 4 m.level := by
  refine slice_flatten 7 _ _ rfl ?_ ?_ <;>
    simp [henc, h.gstate_creserved, h.gstate_sreserved, h.pstate_reserved]

theorem slice_size : slice (m.encode enc) 32 4 = enc 4 m.size := by
  refine slice_flatten 8 _ _ rfl ?_ ?_ <;>
    simp [henc, h.gstate_creserved, h.gstate_sreserved, h.pstate_reserved]

theorem slice_nr_disks : slice (m.encode enc) 36 4 = enc 4 m.nr_disks := by
  refine slice_flatten 9 _ _ rfl ?_ ?_ <;>
    simp [henc, h.gstate_creserved, h.gstate_sreserved, h.pstate_reserved]

theorem slice_raid_disks : slice (m.encode enc) 40 4 = enc 4 m.raid_disks := by
  refine slice_flatten 10 _ _ rfl ?_ ?_ <;>
    simp [henc, h.gstate_creserved, h.gstate_sreserved, h.pstate_reserved]

theorem slice_set_uuid1 : slice (m.encode enc) 52 4 = enc 4 m.set_uuid1 := by
  refine slice_flatten 13 _ _ rfl ?_ ?_ <;>
    simp [henc, h.gstate_creserved, h.gstate_sreserved, h.pstate_reserved]

theorem slice_set_uuid2 : slice (m.encode enc) 56 4 = enc 4 m.set_uuid2 := by
  refine slice_flatten 14 _ _ rfl ?_ ?_ <;>
    simp [henc, h.gstate_creserved, h.gstate_sreserved, h.pstate_reserved]

theorem slice_set_uuid3 : slice (m.encode enc) 60 4 = enc 4 m.set_uuid3 := by
  refine slice_flatten 15 _ _ rfl ?_ ?_ <;>
    simp [henc, h.gstate_creserved, h.gstate_sreserved, h.pstate_reserved]

theorem slice_events : slice (m.encode enc) 156 8 = enc 8 m.events := by
  refine slice_flatten 24 _ _ rfl ?_ ?_ <;>
    simp [henc, h.gstate_creserved, h.gstate_sreserved, h.pstate_reserved]

theorem slice_reshape_position : slice (m.encode enc) 176 8 = enc 8 m.reshape_position := by
  refine slice_flatten 27 _ _ rfl ?_ ?_ <;>
    simp [henc, h.gstate_creserved, h.gstate_sreserved, h.pstate_reserved]

theorem slice_new_level : slice (m.encode enc) 184 4 = enc 4 m.new_level := by
  refine slice_flatten 28 _ _ rfl ?_ ?_ <;>
    simp [henc, h.gstate_creserved, h.gstate_sreserved, h.pstate_reserved]

theorem slice_delta_disks : slice (m.encode enc) 188 4 = enc 4 m.delta_disks := by
  refine slice_flatten 29 _ _ rfl ?_ ?_ <;>
    simp [henc, h.gstate_creserved, h.gstate_sreserved, h.pstate_reserved]

theorem slice_new_layout : slice (m.encode enc) 192 4 = enc 4 m.new_layout := by
  refine slice_flatten 30 _ _ rfl ?_ ?_ <;>
    simp [henc, h.gstate_creserved, h.gstate_sreserved, h.pstate_reserved]

theorem slice_new_chunk : slice (m.encode enc) 196 4 = enc 4 m.new_chunk := by
  refine slice_flatten 31 _ _ rfl ?_ ?_ <;>
    simp [henc, h.gstate_creserved, h.gstate_sreserved, h.pstate_reserved]

theorem slice_layout : slice (m.encode enc) 256 4 = enc 4 m.layout := by
  refine slice_flatten 33 _ _ rfl ?_ ?_ <;>
    simp [henc, h.gstate_creserved, h.gstate_sreserved, h.pstate_reserved]

theorem slice_chunk_size : slice (m.encode enc) 260 4 = enc 4 m.chunk_size := by
  refine slice_flatten 34 _ _ rfl ?_ ?_ <;>
    simp [henc, h.gstate_creserved, h.gstate_sreserved, h.pstate_reserved]

theorem length_disks : (m.disks.map (MdpDisk.encode enc)).flatten.length = 3456 := by
  have h1 := length_flatten_uniform (cs := m.disks.map (MdpDisk.encode enc)) (w := 128) (by
    intro c hc
    obtain ⟨d, hd, rfl⟩ := List.mem_map.mp hc
    exact MdpDisk.length_encode henc (h.disks d hd))
  rw [h1, List.length_map, h.disks_length]

theorem slice_disks :
    slice (m.encode enc) 512 3456 = (m.disks.map (MdpDisk.encode enc)).flatten := by
  refine slice_flatten 38 _ _ rfl ?_ (length_disks henc h)
  simp [henc, h.gstate_creserved, h.gstate_sreserved, h.pstate_reserved]

theorem slice_this_disk : slice (m.encode enc) 3968 128 = m.this_disk.encode enc := by
  refine slice_flatten 39 _ _ rfl ?_ (MdpDisk.length_encode henc h.this_disk)
  simp only [List.map_cons, List.take_succ_cons, List.take_zero, List.sum_cons, List.sum_nil, henc,
    length_disks henc h, h.gstate_creserved, h.gstate_sreserved, h.pstate_reserved, Nat.reduceAdd]

theorem length_encode : (m.encode enc).length = 4096 := by
  have h1 := length_disks henc h
  have h2 := MdpDisk.length_encode henc h.this_disk
  unfold Mdp0.encode
  rw [List.length_flatten]
  simp only [List.map_cons, List.map_nil, List.sum_cons, List.sum_nil, henc, h1, h2,
    h.gstate_creserved, h.gstate_sreserved, h.pstate_reserved, Nat.reduceAdd]

end Mdp0
end MdSpec
