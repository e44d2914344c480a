import Verif.Props.Results
import Verif.Props.Registry
import Verif.Props.Options
import Verif.Props.Driver
import Verif.Props.Main
import Verif.Props.Suppress
import Verif.Props.SourceLines
import Verif.Props.MetricRun
import Verif.Props.RunsThrough
import Verif.Props.Program
import Verif.Props.ProjectLists
import Verif.Props.ProjectBundle
import Verif.Props.RulesReport
import Verif.Props.Metrics
import Verif.Props.Thresholds
import Verif.Props.ShortNames
import Verif.Props.ReportJson
import Verif.Props.ReportXml
import Verif.Props.ReportPmd
import Verif.Props.ReportText
import Verif.Props.ReportLimits
import Verif.Props.ReportTotals
import Verif.Props.Version
import Verif.Props.SortTable
import Verif.Props.Script
import Verif.Props.CollapsibleIf
import Verif.Props.DeadCode
import Verif.Props.UnnecessaryElse
import Verif.Props.Redundant
import Verif.Props.Expressions
import Verif.Props.Blocks
import Verif.Props.Switch
import Verif.Props.NullChecks
import Verif.Props.Unneeded
import Verif.Props.FeatureEnvy
import Verif.Props.ConfigLifetime
import Verif.Props.LocalRules
import Verif.Props.CxxRules
import Verif.Props.Unused
import Verif.Props.Uploads
import Verif.Props.Cocoa
import Verif.Props.Migration
import Verif.Props.Console
import Verif.Props.ConfigYaml
import Verif.Props.DocGen
import Verif.Props.Run
import Verif.Props.Lifecycle
import Verif.Props.Catalogue
import Verif.Props.Scaffold
import Verif.Props.Install
import Verif.Props.LongLineRun
import Verif.Props.Redeclarations
import Verif.Props.HtmlPage
import Verif.Props.ReportRun
import Verif.Props.TreeRun
import Verif.Props.WriteFailure
import Verif.Tests.Abstract
import Verif.Tests.Basic
import Verif.Tests.Cocoa
import Verif.Tests.Convention
import Verif.Tests.Cuda
import Verif.Tests.Design
import Verif.Tests.Empty
import Verif.Tests.Helper
import Verif.Tests.Metrics
import Verif.Tests.Migration
import Verif.Tests.Naming
import Verif.Tests.Properties
import Verif.Tests.Redundant
import Verif.Props.BuildScripts
import Verif.Tests.Reporters
import Verif.Tests.Size
import Verif.Tests.Unused
import Verif.Props.Bundle
import Verif.Props.LlvmSetup
import Verif.Props.CiScripts
import Verif.Props.CmakeCache
import Verif.Props.ReportOrder
import Verif.Props.Shards
import Verif.Props.JsonExact
import Verif.Props.LineExact
import Verif.Props.XmlExact
import Verif.Props.CommandLine
import Verif.Props.Adjusters
import Verif.Props.AnnotationComment
import Verif.Props.CMake
import Verif.Props.TestLists
import Verif.Props.Argparse
