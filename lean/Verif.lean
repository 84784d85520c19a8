import Verif.Props.RawCard
import Verif.Props.Prim
import Verif.Props.Strings
import Verif.Props.Records
import Verif.Props.Vehicle
import Verif.Props.Append
import Verif.Props.RecordFields
import Verif.Props.Activity
import Verif.Props.ActivityLayout
import Verif.Props.ActivityRebuild
import Verif.Props.ActivityMixed
import Verif.Props.CardFiles
import Verif.Props.CardHolder
import Verif.Props.Identification
import Verif.Props.RecordFiles
import Verif.Props.Retained
import Verif.Props.ScannedFiles
import Verif.Props.Overwritten
import Verif.Props.Certificates
import Verif.Props.EccCertificates
import Verif.Props.Resolvers
import Verif.Props.CardTotal
import Verif.Props.EFAppend
import Verif.Props.DriverCard
import Verif.Props.DriverCardWrite
import Verif.Props.Verify
import Verif.Props.VerifyOffline
import Verif.Props.VuRaw
import Verif.Props.VuGen1
import Verif.Props.VuOverview
import Verif.Props.VuFile
import Verif.Props.File
import Verif.Props.Anonymize
import Verif.Props.AnonymizeVehicles
import Verif.Props.AnonymizeCard
import Verif.Spec.HandText
import Verif.Props.HandText
import Verif.Spec.Texts
import Verif.Props.Texts
import Verif.Model.EnumNames
import Verif.Spec.Regulation
import Verif.Props.Regulation
import Verif.Props.Layouts
import Verif.Spec.Download
import Verif.Props.ActivityStraddle
import Verif.Props.Download
import Verif.Spec.VuRegulation
import Verif.Props.VuRegulation
import Verif.Model.FetchCerts
import Verif.Spec.FetchCerts
import Verif.Lemmas.Calendar
import Verif.Props.FetchCerts
import Verif.Props.FetchIndex
import Verif.Props.FetchPage
import Verif.Props.FetchClient
import Verif.Spec.WriteRead
import Verif.Spec.WriteFiles
import Verif.Props.WriteRead
import Verif.Props.WriteRecords
import Verif.Props.WriteFiles
import Verif.Props.WriteLists
import Verif.Props.WriteIdent
import Verif.Props.WriteMissing
import Verif.Props.WriteExamples
import Verif.Spec.CardReread
import Verif.Props.CardReread
import Verif.Props.CardWriteRead
import Verif.Props.CardWriteReadExamples
import Verif.Model.FetchRun
import Verif.Model.Built
import Verif.Spec.FetchRun
import Verif.Props.FetchRun
import Verif.Props.FetchRunExamples
import Verif.Model.Cli
import Verif.Props.Cli
import Verif.Model.VuLegacy
import Verif.Model.VuLegacyCap
import Verif.Spec.VuLegacy
import Verif.Spec.VuLegacyCap
import Verif.Props.VuLegacy
import Verif.Props.VuLegacyCap
import Verif.Spec.CardAgain
import Verif.Props.CardAgain
import Verif.Props.CardWritable
import Verif.Props.CardAgainExamples
import Verif.Spec.CardSettled
import Verif.Props.CardSettledParts
import Verif.Props.CardSettled
import Verif.Props.CardSettledExamples
import Verif.Props.VuAppend
import Verif.Spec.TextMeaning
import Verif.Props.TextMeaning
import Verif.Props.CardStable
import Verif.Props.CardRewrite
import Verif.Model.Sharing
import Verif.Props.Sharing
import Verif.Props.VerifyAgain
import Verif.Model.Kept
import Verif.Props.Kept
import Verif.Model.Concurrent
import Verif.Spec.Concurrent
import Verif.Props.Concurrent
import Verif.Spec.Reduce
import Verif.Props.Reduce
import Verif.Props.ReduceRead
import Verif.Props.ReduceExamples
import Verif.Spec.Order
import Verif.Props.Order
import Verif.Spec.CutOff
import Verif.Props.CutOff
import Verif.Props.CutOffExamples
import Verif.Spec.Size
import Verif.Props.Size
import Verif.Props.SizeActivity
import Verif.Props.SizeExamples
import Verif.Spec.FetchWeb
import Verif.Props.FetchWeb
import Verif.Spec.Join
import Verif.Props.Join
import Verif.Props.JoinExamples
import Verif.Spec.Fidelity
import Verif.Props.Fidelity
import Verif.Props.FidelityExamples
import Verif.Model.Json
import Verif.Spec.Json
import Verif.Props.JsonGrammar
import Verif.Props.JsonParse
import Verif.Props.JsonIndex
import Verif.Props.IndexRun
import Verif.Spec.Issuing
import Verif.Lemmas.RsaMath
import Verif.Props.Issuing
import Verif.Props.IssuingEcc
import Verif.Spec.GenuineDownload
import Verif.Props.IssuingFile
import Verif.Spec.Marks
import Verif.Props.Marks
import Verif.Spec.Protection
import Verif.Props.Protection
import Verif.Spec.VuDamage
import Verif.Props.VuDamage
import Verif.Props.DriverCardLong
import Verif.Spec.VerifyRewritten
import Verif.Props.VerifyRewritten
import Verif.Props.VerifyRewrittenExamples
import Verif.Spec.Published
import Verif.Props.Published
import Verif.Props.PublishedExamples
import Verif.Spec.Schema
import Verif.Props.Schema
import Verif.Props.SchemaExamples
import Verif.Spec.Ranges
import Verif.Props.Ranges
import Verif.Model.NullEntries
import Verif.Spec.NullEntries
import Verif.Props.NullEntries
import Verif.Model.Shared
import Verif.Spec.Shared
import Verif.Props.Shared
import Verif.Model.AnonymizeHeap
import Verif.Spec.AnonymizeHeap
import Verif.Props.AnonymizeHeap
import Verif.Model.AnonymizeObjects
import Verif.Spec.AnonymizeObjects
import Verif.Props.AnonymizeObjects
import Verif.Spec.AnonymizeBytes
import Verif.Props.AnonymizeBytes
import Verif.Model.AnonymizeIdent
import Verif.Spec.AnonymizeIdent
import Verif.Props.AnonymizeIdent
import Verif.Props.AnonymizeIdentNew
import Verif.Props.DateDigits
import Verif.Props.FetchNames
import Verif.Props.EventFields
