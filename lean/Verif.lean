import Verif.Model.Server
import Verif.Model.Stream
import Verif.Props.Subrecords
import Verif.Props.PosWire
import Verif.Props.SubMisc
import Verif.Props.Records
import Verif.Props.Decode
import Verif.Props.Packages
import Verif.Props.Memory
import Verif.Props.Checksums
import Verif.Props.Noise
import Verif.Props.Stream
import Verif.Props.Receiver
import Verif.Props.Crash
import Verif.Props.Storage
import Verif.Props.System
import Verif.Props.Timed
import Verif.Props.Run
import Verif.Props.Output
import Verif.Props.Gen
import Verif.Props.Reencode
import Verif.Props.Wire
import Verif.Props.Compose
import Verif.Props.Json
import Verif.Props.Connectors
import Verif.Props.Main
import Verif.Props.Dsn
import Verif.Props.Proto
import Verif.Props.PkgJson
import Verif.Props.Layout
import Verif.Props.Left
import Verif.Props.EndToEnd
import Verif.Props.Fine
import Verif.Props.Relay
import Verif.Props.Cli
import Verif.Props.SendEgts
import Verif.Props.Program
import Verif.Tests
import Verif.TestsCsv
import Verif.Props.Cut
import Verif.Model.Parse
import Verif.Spec.Parse
import Verif.Proofs.Parse
import Verif.Props.Texts
import Verif.Props.Numbers
import Verif.Spec.Genuine
import Verif.Proofs.Genuine
import Verif.Props.Genuine
import Verif.Props.Acked
import Verif.Spec.Live
import Verif.Proofs.Live
import Verif.Props.Live
import Verif.Props.Terminates
import Verif.Model.Alloc
import Verif.Spec.Alloc
import Verif.Proofs.Alloc
import Verif.Proofs.AllocMore
import Verif.Proofs.AllocFrame
import Verif.Props.Alloc
import Verif.Model.Slow
import Verif.Spec.Slow
import Verif.Proofs.Slow
import Verif.Props.Slow
import Verif.Spec.Device
import Verif.Props.Device
import Verif.Model.YamlText
import Verif.Spec.YamlText
import Verif.Proofs.YamlText
import Verif.Props.YamlText
import Verif.Spec.Resend
import Verif.Props.Resend
import Verif.Props.Login
import Verif.Model.Container
import Verif.Spec.Container
import Verif.Props.Container
import Verif.Model.Concurrent
import Verif.Spec.Concurrent
import Verif.Proofs.Concurrent
import Verif.Props.Concurrent
import Verif.Spec.Ignored
import Verif.Proofs.Ignored
import Verif.Props.Ignored
import Verif.Spec.Damage
import Verif.Props.Damage
import Verif.Spec.Fits
import Verif.Props.Fits
import Verif.Spec.Seconds
import Verif.Props.Seconds
import Verif.Model.After
import Verif.Spec.After
import Verif.Proofs.After
import Verif.Props.After
import Verif.Props.AfterMore
import Verif.Spec.Machines
import Verif.Proofs.Machines
import Verif.Props.Machines
import Verif.Spec.Lines
import Verif.Proofs.Lines
import Verif.Proofs.Indented
import Verif.Props.Lines
import Verif.Spec.Answers
import Verif.Proofs.Answers
import Verif.Props.Answers
import Verif.Spec.Told
import Verif.Proofs.Told
import Verif.Props.Told
import Verif.Model.Double
import Verif.Spec.Double
import Verif.Proofs.Double
import Verif.Props.Double
import Verif.Spec.Passed
import Verif.Proofs.Passed
import Verif.Proofs.PassedRun
import Verif.Props.Passed
import Verif.Model.Reason
import Verif.Spec.Reason
import Verif.Props.Reason
import Verif.Spec.History
import Verif.Props.History
import Verif.Model.Close
import Verif.Props.Close
import Verif.Props.Accel
