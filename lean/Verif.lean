import Verif.Props.Versions
import Verif.Props.VersionsCargo
import Verif.Props.Id
import Verif.Props.Database
import Verif.Props.Report
import Verif.Props.Checksum
import Verif.Props.Source
import Verif.Props.SourceCmp
import Verif.Props.Lockfile
import Verif.Props.LockfileV1
import Verif.Props.Tree
import Verif.Props.CvssText
import Verif.Props.CvssV3Score
import Verif.Props.CvssV2Score
import Verif.Props.CvssV4Score
import Verif.Props.Platform
import Verif.Props.CachedIndex
import Verif.Props.Binary
import Verif.Props.Audit
import Verif.Props.AuditRun
import Verif.Props.Newer
import Verif.Props.Sarif
import Verif.Props.AuditExamples
import Verif.Props.Fix
import Verif.Props.Repository
import Verif.Props.AdvisoryFile
import Verif.Props.Linter
import Verif.Props.LinterGate
import Verif.Props.LinterExamples
import Verif.Props.AssignerTitle
import Verif.Props.AssignerIds
import Verif.Props.Assigner
import Verif.Props.AssignerCrash
import Verif.Props.AssignerExamples
import Verif.Props.ModTimes
import Verif.Props.SyncText
import Verif.Props.SyncRun
import Verif.Props.Sync
import Verif.Props.SyncExamples
import Verif.Props.Quitters
import Verif.Props.QuittersExamples
import Verif.Props.BinaryDeps
import Verif.Model.OsvExport
import Verif.Spec.OsvExport
import Verif.Lemmas.AdvisoryDecode
import Verif.Props.OsvExport
import Verif.Props.OsvExportAll
import Verif.Props.OsvExportExamples
import Verif.Spec.AdvisoryDecode
import Verif.Props.AdvisoryDecode
import Verif.Model.AdminLint
import Verif.Spec.AdminLint
import Verif.Props.AdminLint
import Verif.Props.AdminLintExamples
import Verif.Model.Web
import Verif.Spec.Web
import Verif.Lemmas.Upsert
import Verif.Lemmas.IsoOrder
import Verif.Props.WebGroups
import Verif.Props.Web
import Verif.Props.WebPages
import Verif.Props.WebFeed
import Verif.Props.WebExamples
import Verif.Model.LockCli
import Verif.Spec.LockCli
import Verif.Props.LockCli
import Verif.Props.LockCliTree
import Verif.Props.LockCliExamples
import Verif.Model.ListVersions
import Verif.Spec.ListVersions
import Verif.Props.ListVersions
import Verif.Props.ListVersionsExamples
import Verif.Model.Terminal
import Verif.Spec.Terminal
import Verif.Props.Terminal
import Verif.Props.TerminalExamples
import Verif.Model.GitRefs
import Verif.Spec.GitRefs
import Verif.Props.GitRefs
import Verif.Model.SyncCmd
import Verif.Spec.SyncCmd
import Verif.Props.SyncCmd
import Verif.Model.PlatformGen
import Verif.Model.PlatformNames
import Verif.Spec.PlatformGen
import Verif.Props.PlatformGen
import Verif.Props.PlatformDoc
import Verif.Props.PlatformRun
import Verif.Props.PlatformCommitted
import Verif.Model.PlatformPrint
import Verif.Model.PlatformReadme
import Verif.Spec.PlatformPrint
import Verif.Props.PlatformPrint
import Verif.Model.CvssListing
import Verif.Spec.CvssListing
import Verif.Props.CvssListing
import Verif.Model.Json
import Verif.Spec.Json
import Verif.Props.Json
import Verif.Model.ReportJson
import Verif.Spec.ReportJson
import Verif.Props.ReportJson
import Verif.Props.ReportJsonText
import Verif.Model.SarifJson
import Verif.Spec.SarifJson
import Verif.Props.SarifJson
import Verif.Props.SarifJsonExamples
import Verif.Model.JsonPretty
import Verif.Props.JsonPretty
import Verif.Model.OsvJson
import Verif.Spec.OsvJson
import Verif.Props.OsvJson
import Verif.Props.OsvJsonRead
import Verif.Props.OsvJsonText
import Verif.Props.OsvJsonSync
import Verif.Props.ReportOnce
import Verif.Model.AuditJson
import Verif.Spec.AuditJson
import Verif.Props.AuditJson
import Verif.Props.AuditJsonExamples
import Verif.Props.AuditFindings
import Verif.Props.AuditSarif
import Verif.Spec.CvssError
import Verif.Props.CvssError
import Verif.Props.CvssErrorText
import Verif.Spec.Toml
import Verif.Model.LockText
import Verif.Spec.LockText
import Verif.Lemmas.TomlLex
import Verif.Lemmas.TomlBuild
import Verif.Props.LockText
import Verif.Props.LockTextExamples
import Verif.Model.QueryBuilder
import Verif.Spec.QueryBuilder
import Verif.Props.QueryBuilder
import Verif.Model.ConfigFile
import Verif.Spec.ConfigFile
import Verif.Props.ConfigFile
import Verif.Props.ConfigFileExamples
import Verif.Model.Transcript
import Verif.Spec.Transcript
import Verif.Props.Transcript
import Verif.Props.TranscriptExamples
import Verif.Spec.SemverText
import Verif.Spec.SemverLib
import Verif.Props.SemverText
import Verif.Props.SemverLib
import Verif.Model.Project
import Verif.Spec.Project
import Verif.Props.Project
import Verif.Props.ProjectExamples
import Verif.Props.ProjectLoad
import Verif.Spec.ProjectJson
import Verif.Props.ProjectJson
import Verif.Model.ProjectBin
import Verif.Spec.ProjectBin
import Verif.Props.ProjectBin
import Verif.Props.ProjectBinJson
import Verif.Props.ProjectBinExamples
import Verif.Lemmas.TomlKeys
import Verif.Model.ProjectLint
import Verif.Spec.ProjectLint
import Verif.Props.ProjectLint
import Verif.Props.ProjectLintExamples
import Verif.Model.LintTranscript
import Verif.Spec.LintTranscript
import Verif.Props.LintMentions
import Verif.Props.LintTranscript
import Verif.Props.LintTranscriptExamples
import Verif.Spec.LockMeaning
import Verif.Lemmas.LockMeaning
import Verif.Props.LockMeaning
import Verif.Props.LockMeaningExamples
import Verif.Spec.OsvConsumer
import Verif.Lemmas.OsvValid
import Verif.Props.OsvConsumer
import Verif.Props.OsvConsumerExamples
import Verif.Model.Osv64
import Verif.Spec.Osv64
import Verif.Props.Osv64
import Verif.Props.Osv64Text
import Verif.Props.ProjectLibs
import Verif.Model.SourceApi
import Verif.Spec.SourceApi
import Verif.Props.SourceApi
import Verif.Model.LockCommands
import Verif.Spec.LockCommands
import Verif.Lemmas.LockCommands
import Verif.Props.LockCommands
import Verif.Props.LockCommandsExamples
import Verif.Model.WebSearch
import Verif.Lemmas.WebSearch
import Verif.Props.WebSearch
import Verif.Props.WebSearchExamples
import Verif.Spec.LockTree
import Verif.Props.LockTree
import Verif.Props.LockTreeExamples
import Verif.Spec.ProjectTerminal
import Verif.Props.ProjectTerminal
import Verif.Props.ProjectTerminalExamples
import Verif.Spec.ProjectList
import Verif.Props.ProjectList
import Verif.Props.ProjectListExamples
import Verif.Model.ProjectFix
import Verif.Spec.ProjectFix
import Verif.Props.ProjectFix
import Verif.Props.ProjectFixExamples
import Verif.Props.BinTranscript
import Verif.Model.ProjectBinTerminal
import Verif.Spec.ProjectBinTerminal
import Verif.Props.ProjectBinTerminal
import Verif.Props.ProjectBinTerminalExamples
import Verif.Model.AssignRun
import Verif.Spec.AssignRun
import Verif.Props.AssignRun
import Verif.Model.ProjectShown
import Verif.Props.ProjectShown
import Verif.Props.ProjectShownExamples
import Verif.Spec.Meets
import Verif.Props.Meets
import Verif.Model.LintText
import Verif.Spec.LintText
import Verif.Props.LintText
import Verif.Props.LintTells
import Verif.Model.SitePaths
import Verif.Spec.SitePaths
import Verif.Props.SitePaths
import Verif.Model.OsvPaths
import Verif.Spec.OsvPaths
import Verif.Props.OsvPaths
