import Verif.Conformance
import Verif.Lemmas.Borders
import Verif.Lemmas.Boundary
import Verif.Lemmas.Clear
import Verif.Lemmas.Decimal
import Verif.Lemmas.Duration
import Verif.Lemmas.Eof
import Verif.Lemmas.Events
import Verif.Lemmas.Flags
import Verif.Lemmas.Float
import Verif.Lemmas.Frags
import Verif.Lemmas.Frame
import Verif.Lemmas.Halt
import Verif.Lemmas.Ktxstats
import Verif.Lemmas.Map
import Verif.Lemmas.Messages
import Verif.Lemmas.Names
import Verif.Lemmas.ParseFloat
import Verif.Lemmas.Ping
import Verif.Lemmas.Players
import Verif.Lemmas.Prints
import Verif.Lemmas.Profile
import Verif.Lemmas.Reorder
import Verif.Lemmas.Rounding
import Verif.Lemmas.Scan
import Verif.Lemmas.Scores
import Verif.Lemmas.Search
import Verif.Lemmas.Sort
import Verif.Lemmas.Teams
import Verif.Lemmas.Time
import Verif.Lemmas.Utf8
import Verif.Lemmas.Walk
import Verif.Model.Cursor
import Verif.Model.Duration
import Verif.Model.Env
import Verif.Model.FlagEvent
import Verif.Model.Flags
import Verif.Model.FragEvent
import Verif.Model.Frags
import Verif.Model.Frame
import Verif.Model.Info
import Verif.Model.Ktxstats
import Verif.Model.Matchdate
import Verif.Model.Numbers
import Verif.Model.Ping
import Verif.Model.Players
import Verif.Model.Prints
import Verif.Model.Prot
import Verif.Model.Teams
import Verif.Model.Timezone
import Verif.Model.Utf8Events
import Verif.Model.Width
import Verif.Props.Agreement
import Verif.Props.Ambush
import Verif.Props.Awards
import Verif.Props.Capacity
import Verif.Props.Chat
import Verif.Props.ChatTime
import Verif.Props.Chats
import Verif.Props.Clear
import Verif.Props.Clients
import Verif.Props.Clock
import Verif.Props.Closed
import Verif.Props.Concord
import Verif.Props.Consistency
import Verif.Props.Contain
import Verif.Props.Content
import Verif.Props.Ctf
import Verif.Props.Cut
import Verif.Props.Damage
import Verif.Props.Dates
import Verif.Props.Duration
import Verif.Props.Events
import Verif.Props.Example
import Verif.Props.Flags
import Verif.Props.Footprint
import Verif.Props.Forged
import Verif.Props.FragOverflow
import Verif.Props.Frags
import Verif.Props.Frames
import Verif.Props.Glued
import Verif.Props.Growth
import Verif.Props.Healthy
import Verif.Props.Hearsay
import Verif.Props.Ieee
import Verif.Props.Info
import Verif.Props.Instances
import Verif.Props.Ktxstats
import Verif.Props.Ledger
import Verif.Props.Locality
import Verif.Props.Loss
import Verif.Props.Match
import Verif.Props.Metadata
import Verif.Props.Names
import Verif.Props.Open
import Verif.Props.Packing
import Verif.Props.Panics
import Verif.Props.People
import Verif.Props.Ping
import Verif.Props.Players
import Verif.Props.Possible
import Verif.Props.Prints
import Verif.Props.Profile
import Verif.Props.Protocol
import Verif.Props.Provenance
import Verif.Props.Ranges
import Verif.Props.Recorded
import Verif.Props.Recorder
import Verif.Props.Recording
import Verif.Props.Renaming
import Verif.Props.Report
import Verif.Props.Robustness
import Verif.Props.Seconds
import Verif.Props.Server
import Verif.Props.ServerTeams
import Verif.Props.Silent
import Verif.Props.Size
import Verif.Props.Slots
import Verif.Props.StatsPlan
import Verif.Props.StatsRecording
import Verif.Props.TeamOverflow
import Verif.Props.TeamRows
import Verif.Props.Teams
import Verif.Props.Time
import Verif.Props.Timeline
import Verif.Props.Utf8Events
import Verif.Props.Verdicts
import Verif.Props.Width
import Verif.Props.WidthStats
import Verif.Props.Work
import Verif.Rust.Float
import Verif.Rust.Ieee
import Verif.Rust.Lit
import Verif.Rust.Map
import Verif.Rust.ParseFloat
import Verif.Rust.Res
import Verif.Rust.Search
import Verif.Rust.Str
import Verif.Spec.Ambush
import Verif.Spec.Award
import Verif.Spec.Chat
import Verif.Spec.Clear
import Verif.Spec.Ctf
import Verif.Spec.Duration
import Verif.Spec.Flags
import Verif.Spec.FloatText
import Verif.Spec.Forged
import Verif.Spec.Frags
import Verif.Spec.Hearsay
import Verif.Spec.Info
import Verif.Spec.Ktxstats
import Verif.Spec.Layout
import Verif.Spec.Match
import Verif.Spec.Messages
import Verif.Spec.Obituary
import Verif.Spec.Order
import Verif.Spec.Packing
import Verif.Spec.Ping
import Verif.Spec.Plan
import Verif.Spec.Recorder
import Verif.Spec.Server
import Verif.Spec.StatsRecorder
import Verif.Spec.Text
import Verif.Spec.Time
import Verif.Spec.Timeline
import Verif.Spec.Userinfo
import Verif.Spec.Utf8
import Verif.Spec.Width
import Verif.Spec.Wire
import Verif.Spec.Work
import Verif.UnitTests
