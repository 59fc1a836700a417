import Verif.Props.Merkle
import Verif.Props.Trust
import Verif.Props.Checkpoint
import Verif.Props.Codecs
import Verif.Props.LogEntry
import Verif.Props.Policy
import Verif.Props.CertUtils
import Verif.Props.Hashing
import Verif.Props.KeyDetails
import Verif.Props.Dsse
import Verif.Props.Sct
import Verif.Props.Bundle
import Verif.Props.Verifier
import Verif.Props.Verification
import Verif.Props.VerificationExamples
import Verif.Props.Failures
import Verif.Props.Signer
import Verif.Props.RekorRequest
import Verif.Props.SigningConfig
import Verif.Props.Oidc
import Verif.Props.OAuth
import Verif.Props.RekorClient
import Verif.Props.Tuf
import Verif.Props.CliVerify
import Verif.Props.CliExit
import Verif.Props.CliExitStatus
import Verif.Props.CliSign
import Verif.Props.CliSignJobs
import Verif.Props.CliSignCommands
import Verif.Props.CliSignExamples
import Verif.Props.EndToEnd
import Verif.Props.EndToEndExamples
import Verif.Props.World
import Verif.Props.WorldExamples
import Verif.Spec.Canonical
import Verif.Spec.Growth
import Verif.Props.Growth
import Verif.Props.GrowthExamples
import Verif.Model.Http
import Verif.Spec.Http
import Verif.Props.Http
import Verif.Props.HttpClients
import Verif.Prelude.Json
import Verif.Model.Statement
import Verif.Model.Slsa
import Verif.Spec.InToto
import Verif.Props.Slsa
import Verif.Props.Statement
import Verif.Model.Args
import Verif.Model.CliMain
import Verif.Spec.Args
import Verif.Lemmas.Args
import Verif.Props.Args
import Verif.Props.CliMain
import Verif.Props.FixBundleFile
import Verif.Props.CliMainExamples
import Verif.Props.CliMainStatus
import Verif.Spec.Privacy
import Verif.Props.CliSignPrivacy
import Verif.Model.Url
import Verif.Model.Traffic
import Verif.Spec.Url
import Verif.Spec.Traffic
import Verif.Props.Url
import Verif.Props.OAuthUrl
import Verif.Props.Traffic
import Verif.Props.TrafficExamples
import Verif.Spec.Usage
import Verif.Props.CliUsage
import Verif.Props.HttpErrors
import Verif.Spec.Roundtrip
import Verif.Spec.SignReady
import Verif.Props.CliRoundtrip
import Verif.Props.CliFair
import Verif.Props.CliComplete
import Verif.Props.CliRoundtripExamples
import Verif.Spec.Raises
import Verif.Lemmas.Raises
import Verif.Props.Raises
import Verif.Spec.Detached
import Verif.Props.Detached
import Verif.Props.CliRoundtripMain
import Verif.Props.CliSignFrame
import Verif.Props.DetachedExamples
import Verif.Model.CliReport
import Verif.Spec.Report
import Verif.Spec.Logging
import Verif.Props.CliReport
import Verif.Props.CliLogging
import Verif.Props.CliReportExamples
import Verif.Model.SignReport
import Verif.Spec.SignReport
import Verif.Props.SignReport
import Verif.Props.SignReportExamples
import Verif.Spec.SignRaises
import Verif.Props.SignRaises
import Verif.Props.SignRaisesExact
import Verif.Spec.Evidence
import Verif.Props.Evidence
import Verif.Spec.Confusion
import Verif.Props.Confusion
import Verif.Spec.Update
import Verif.Props.Update
import Verif.Spec.IdentityCommand
import Verif.Props.IdentityCommand
import Verif.Model.Argv
import Verif.Spec.Argv
import Verif.Lemmas.Argv
import Verif.Lemmas.ArgvLevel
import Verif.Lemmas.ArgvSplit
import Verif.Props.Argv
import Verif.Props.ArgvSafe
import Verif.Model.OAuthTraffic
import Verif.Spec.OAuthTraffic
import Verif.Props.OAuthTraffic
import Verif.Model.Shown
import Verif.Spec.Shown
import Verif.Props.Shown
import Verif.Props.ShownExamples
import Verif.Spec.Periods
import Verif.Props.Periods
import Verif.Model.Work
import Verif.Spec.Work
import Verif.Props.Work
import Verif.Props.WorkExamples
import Verif.Lemmas.NeverExit
import Verif.Props.ExitStatuses
import Verif.Props.Batch
import Verif.Model.Moving
import Verif.Spec.Moving
import Verif.Props.Moving
import Verif.Spec.Rests
import Verif.Props.Rests
import Verif.Model.Library
import Verif.Props.Library
import Verif.Model.MovingClock
import Verif.Spec.MovingClock
import Verif.Props.MovingClock
import Verif.Model.SharedDisk
import Verif.Spec.SharedDisk
import Verif.Props.SharedDisk
import Verif.Props.SignFailures
import Verif.Spec.Slow
import Verif.Props.Slow
import Verif.Spec.Leftover
import Verif.Props.Leftover
import Verif.Spec.Cosigned
import Verif.Props.Cosigned
import Verif.Model.TufShared
import Verif.Spec.TufShared
import Verif.Props.TufShared
import Verif.Model.Redirects
import Verif.Spec.Redirects
import Verif.Props.Redirects
import Verif.Props.RedirectsExamples
import Verif.Model.Torn
import Verif.Spec.Torn
import Verif.Props.Torn
import Verif.Model.JsonText
import Verif.Spec.JsonText
import Verif.Lemmas.JsonText
import Verif.Lemmas.JsonGrammar
import Verif.Lemmas.JsonComplete
import Verif.Props.JsonText
import Verif.Props.JsonTextExamples
