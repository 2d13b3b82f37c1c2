import Verif.Model.Phase1
import Verif.Model.Lagrange
import Verif.Props.Commands
import Verif.Props.Common
import Verif.Props.Lagrange
import Verif.Props.Phase1
import Verif.Props.Phase1Sound
import Verif.Props.Phase1History
import Verif.Props.Phase1Truncate
import Verif.Props.Transform
import Verif.Model.Phase2
import Verif.Model.Phase2Init
import Verif.Model.Gob
import Verif.Proofs.Gob
import Verif.Proofs.Phase2Ceremony
import Verif.Props.Phase2
import Verif.Props.Phase2Sound
import Verif.Props.Phase2Straddle
import Verif.Props.Phase2Undecodable
import Verif.Props.Init
import Verif.Props.Keys
import Verif.Props.Gob
import Verif.Props.Groth16
import Verif.Model.Cli
import Verif.Spec.Cli
import Verif.Proofs.Cli
import Verif.Props.Cli
import Verif.Spec.Session
import Verif.Props.Session
import Verif.Props.Phase2Align
import Verif.Props.Phase2Truncate
import Verif.Model.Disk
import Verif.Proofs.Disk
import Verif.Props.Disk
import Verif.Props.Continue
import Verif.Spec.Panic
import Verif.Proofs.Panic
import Verif.Props.Panic
import Verif.Model.Console
import Verif.Spec.Console
import Verif.Proofs.Console
import Verif.Props.Console
import Verif.Props.Attest
import Verif.Props.Commitment
import Verif.Model.DiskKeys
import Verif.Model.DiskInit
import Verif.Proofs.DiskKeys
import Verif.Proofs.DiskInit
import Verif.Props.DiskKeys
import Verif.Props.DiskInit
import Verif.Props.Counts
import Verif.Proofs.Incomplete
import Verif.Proofs.Incomplete2
import Verif.Props.Incomplete
import Verif.Props.Transcript
import Verif.Model.ConsoleCli
import Verif.Props.ConsoleCli
import Verif.Proofs.AnyInput
import Verif.Proofs.AnyInput2
import Verif.Proofs.AnyInit
import Verif.Spec.Format
import Verif.Props.WellFormed
import Verif.Props.Order
import Verif.Props.Origin
import Verif.Props.Portable
import Verif.Props.Prefix
import Verif.Props.ZeroKnowledge
import Verif.Props.Rejected
import Verif.Props.OneRun
import Verif.Props.DiskRoom
import Verif.Props.Encodings
import Verif.Props.Repeat
import Verif.Props.Invocation
import Verif.Props.InitCrash
import Verif.Props.Soundness
import Verif.Props.Accepted
import Verif.Props.AnyVerify
import Verif.Props.AnyVerify1
import Verif.Props.Universal
import Verif.Props.Wrap
import Verif.Props.AnyContribute
import Verif.Props.CutContribute
import Verif.Props.AnyTransform
import Verif.Props.AnyKeys
import Verif.Props.InitBytes
import Verif.Props.OriginBytes
import Verif.Props.Fork
import Verif.Props.AnyCircuit
import Verif.Props.CutAny
import Verif.Props.Alias
import Verif.Props.Usage
import Verif.Props.AliasInit
import Verif.Props.Meanwhile
import Verif.Props.MeanwhileKeys
import Verif.Props.Denied
import Verif.Props.Killed
import Verif.Props.Rerun
import Verif.Props.KilledContribute
