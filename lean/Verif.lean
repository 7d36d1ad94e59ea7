import Verif.Model.Algorithm
import Verif.Model.Array
import Verif.Model.Basic
import Verif.Model.BlockDevice
import Verif.Model.Codes
import Verif.Model.CommandLine
import Verif.Model.Crc
import Verif.Model.Diagnosis
import Verif.Model.Display
import Verif.Model.Ext4Directory
import Verif.Model.Ext4Extent
import Verif.Model.Ext4File
import Verif.Model.Ext4Fs
import Verif.Model.Ext4Group
import Verif.Model.Ext4Inode
import Verif.Model.Ext4String
import Verif.Model.Ext4Superblock
import Verif.Model.FileDevice
import Verif.Model.Format
import Verif.Model.HMap
import Verif.Model.IO
import Verif.Model.InMemory
import Verif.Model.Interrupted
import Verif.Model.Layout
import Verif.Model.Main
import Verif.Model.MdDevice
import Verif.Model.Native
import Verif.Model.Raid5
import Verif.Model.Raid6
import Verif.Model.ReadAll
import Verif.Model.Reader
import Verif.Model.Report
import Verif.Model.StreamDevice
import Verif.Model.Superblock
import Verif.Model.SuperblockV0
import Verif.Model.SuperblockV1
import Verif.Model.Units
import Verif.Model.Utf8
import Verif.Model.Wide
import Verif.Spec.AnyMembers
import Verif.Spec.AnyVersion
import Verif.Spec.Array
import Verif.Spec.ArrayDamage
import Verif.Spec.ArrayRead
import Verif.Spec.BlockOps
import Verif.Spec.BlockTrace
import Verif.Spec.Clean
import Verif.Spec.CommandLine
import Verif.Spec.Crc
import Verif.Spec.Created
import Verif.Spec.Device
import Verif.Spec.Diagnosis
import Verif.Spec.DirDamage
import Verif.Spec.Elsewhere
import Verif.Spec.EndToEnd
import Verif.Spec.Endless
import Verif.Spec.Ext4Damage
import Verif.Spec.Ext4Directory
import Verif.Spec.Ext4File
import Verif.Spec.Ext4Fs
import Verif.Spec.Ext4Inode
import Verif.Spec.Ext4Open
import Verif.Spec.Ext4Path
import Verif.Spec.Ext4Session
import Verif.Spec.Ext4Superblock
import Verif.Spec.Ext4Tree
import Verif.Spec.Front
import Verif.Spec.FrontList
import Verif.Spec.Intruder
import Verif.Spec.Layout
import Verif.Spec.Lost
import Verif.Spec.Main
import Verif.Spec.MdOnDisk
import Verif.Spec.Mkfs
import Verif.Spec.NoPanic
import Verif.Spec.OpenTrace
import Verif.Spec.Parity
import Verif.Spec.Patchy
import Verif.Spec.PathFound
import Verif.Spec.PathTrace
import Verif.Spec.Probe
import Verif.Spec.Report
import Verif.Spec.ReportText
import Verif.Spec.Rescue
import Verif.Spec.Retry
import Verif.Spec.Rounds
import Verif.Spec.Salvage
import Verif.Spec.SessionFailing
import Verif.Spec.Stream
import Verif.Spec.StreamDevice
import Verif.Spec.Sweep
import Verif.Spec.SweepFailing
import Verif.Spec.SweepFront
import Verif.Spec.SweepPatchy
import Verif.Spec.Trace
import Verif.Spec.Tracked
import Verif.Spec.TreeFound
import Verif.Spec.Unreadable
import Verif.Spec.Utf8
import Verif.Spec.Volume
import Verif.Spec.WholeSet
import Verif.Lemmas.Array
import Verif.Lemmas.ArrayRead
import Verif.Lemmas.Basic
import Verif.Lemmas.BlockOps
import Verif.Lemmas.BlockTrace
import Verif.Lemmas.Bytes
import Verif.Lemmas.CommandLine
import Verif.Lemmas.Crc
import Verif.Lemmas.Devices
import Verif.Lemmas.Diagnosis
import Verif.Lemmas.DirDamage
import Verif.Lemmas.Elsewhere
import Verif.Lemmas.Encode
import Verif.Lemmas.Endless
import Verif.Lemmas.EndlessWalk
import Verif.Lemmas.Ext4Build
import Verif.Lemmas.Ext4DirBlock
import Verif.Lemmas.Ext4Directory
import Verif.Lemmas.Ext4DirectoryFollow
import Verif.Lemmas.Ext4DirectoryList
import Verif.Lemmas.Ext4DirectoryRun
import Verif.Lemmas.Ext4Extent
import Verif.Lemmas.Ext4File
import Verif.Lemmas.Ext4FileCalls
import Verif.Lemmas.Ext4FileEnd
import Verif.Lemmas.Ext4FileRun
import Verif.Lemmas.Ext4Fs
import Verif.Lemmas.Ext4Inode
import Verif.Lemmas.Ext4Path
import Verif.Lemmas.Ext4PathSim
import Verif.Lemmas.Ext4Retry
import Verif.Lemmas.Ext4SessionSim
import Verif.Lemmas.Ext4Sim
import Verif.Lemmas.Ext4Superblock
import Verif.Lemmas.Ext4Tree
import Verif.Lemmas.Ext4Unique
import Verif.Lemmas.Front
import Verif.Lemmas.FrontList
import Verif.Lemmas.HMap
import Verif.Lemmas.LayoutRows
import Verif.Lemmas.Lazy
import Verif.Lemmas.Main
import Verif.Lemmas.MdOnDisk
import Verif.Lemmas.Merge
import Verif.Lemmas.Mkfs
import Verif.Lemmas.Native
import Verif.Lemmas.NoPanic
import Verif.Lemmas.OpenTrace
import Verif.Lemmas.Patchy
import Verif.Lemmas.PatchyExt4
import Verif.Lemmas.PatchyReader
import Verif.Lemmas.PathFound
import Verif.Lemmas.PathTrace
import Verif.Lemmas.Probe
import Verif.Lemmas.Raid
import Verif.Lemmas.Raid6
import Verif.Lemmas.Raid6Read
import Verif.Lemmas.Reader
import Verif.Lemmas.ReaderRun
import Verif.Lemmas.Report
import Verif.Lemmas.ReportText
import Verif.Lemmas.ReportValues
import Verif.Lemmas.Rescue
import Verif.Lemmas.Rounds
import Verif.Lemmas.Salvage
import Verif.Lemmas.SeekableVolume
import Verif.Lemmas.SessionFailing
import Verif.Lemmas.Sim
import Verif.Lemmas.StreamDevices
import Verif.Lemmas.Superblock
import Verif.Lemmas.Sweep
import Verif.Lemmas.SweepFailing
import Verif.Lemmas.SweepFront
import Verif.Lemmas.SweepPatchy
import Verif.Lemmas.Trace
import Verif.Lemmas.Tracked
import Verif.Lemmas.TreeFound
import Verif.Lemmas.Unreadable
import Verif.Lemmas.Utf8
import Verif.Lemmas.Volume
import Verif.Props.AnyMembers
import Verif.Props.AnyVersion
import Verif.Props.ArrayCases
import Verif.Props.ArrayDamage
import Verif.Props.ArrayOpen
import Verif.Props.ArrayRead
import Verif.Props.BlockOps
import Verif.Props.BlockTrace
import Verif.Props.Capacity
import Verif.Props.Clean
import Verif.Props.Codes
import Verif.Props.CommandLine
import Verif.Props.Crc
import Verif.Props.Created
import Verif.Props.Devices
import Verif.Props.Diagnosis
import Verif.Props.DirDamage
import Verif.Props.Display
import Verif.Props.Elsewhere
import Verif.Props.EndToEnd
import Verif.Props.EndToEndCases
import Verif.Props.Endless
import Verif.Props.Ext4Build
import Verif.Props.Ext4Damage
import Verif.Props.Ext4Directory
import Verif.Props.Ext4DirectoryCases
import Verif.Props.Ext4File
import Verif.Props.Ext4FileCases
import Verif.Props.Ext4Fs
import Verif.Props.Ext4Inode
import Verif.Props.Ext4Listing
import Verif.Props.Ext4Open
import Verif.Props.Ext4Path
import Verif.Props.Ext4Session
import Verif.Props.Ext4String
import Verif.Props.Ext4Superblock
import Verif.Props.Ext4Tree
import Verif.Props.Front
import Verif.Props.FrontList
import Verif.Props.Interrupted
import Verif.Props.Intruder
import Verif.Props.Lazy
import Verif.Props.ListRetry
import Verif.Props.Lost
import Verif.Props.LostArray
import Verif.Props.Main
import Verif.Props.Mixed
import Verif.Props.MultiMap
import Verif.Props.Native
import Verif.Props.NoPanic
import Verif.Props.OpenTrace
import Verif.Props.Patchy
import Verif.Props.PathFound
import Verif.Props.PathTrace
import Verif.Props.Probe
import Verif.Props.Raid6Read
import Verif.Props.RaidLayout
import Verif.Props.ReadAll
import Verif.Props.Reader
import Verif.Props.Report
import Verif.Props.ReportCases
import Verif.Props.ReportText
import Verif.Props.Rescue
import Verif.Props.RescueDisks
import Verif.Props.Retry
import Verif.Props.Rounds
import Verif.Props.Salvage
import Verif.Props.SameReport
import Verif.Props.Selection
import Verif.Props.SessionFailing
import Verif.Props.Superblock
import Verif.Props.Sweep
import Verif.Props.SweepDisks
import Verif.Props.SweepFailing
import Verif.Props.SweepFront
import Verif.Props.SweepPatchy
import Verif.Props.Trace
import Verif.Props.TreeFound
import Verif.Props.Twice
import Verif.Props.Unreadable
import Verif.Props.WholeSet
import Verif.Props.Wide
import Verif.Props.Written
import Verif.Fixture.Directory
import Verif.Fixture.Ext4
import Verif.Fixture.Mkfs
import Verif.Fixture.RepoData
import Verif.Fixture.Volume
import Verif.Validation
import Verif.ValidationFs
