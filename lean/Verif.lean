import Verif.Model.Design
import Verif.Spec.Design
import Verif.Proofs.Design
import Verif.Props.Design
import Verif.Model.DesignId
import Verif.Model.Coinflip
import Verif.Proofs.DesignId
import Verif.Props.DesignId
import Verif.Base.Frame
import Verif.Proofs.TimePeriod
import Verif.Props.TimePeriod
import Verif.Props.Pivot
import Verif.Props.Trimmed
import Verif.Props.Cuped
import Verif.Props.TTest
import Verif.Props.TTestResults
import Verif.Props.TTestSymmetry
import Verif.Props.Fieller
import Verif.Props.TTestFormulas
import Verif.Props.Analysis
import Verif.Props.ConstantPretest
import Verif.Props.ConstantPretestExample
import Verif.Props.ZeroControl
import Verif.Props.AnalysisChecks
import Verif.Props.Fill
import Verif.Props.Weeks
import Verif.Props.Columns
import Verif.Props.Validate
import Verif.Props.Assign
import Verif.Props.Pipeline
import Verif.Props.Experiment
import Verif.Props.Generate
import Verif.Props.Wide
import Verif.Props.Effect
import Verif.Props.Simulate
import Verif.Props.SimulateRun
import Verif.Proofs.SimulateTable
import Verif.Proofs.SimulateOnce
import Verif.Proofs.SimulateAgain
import Verif.Props.SimulateValidate
import Verif.Props.SimulateRepeat
import Verif.Props.Synthetic
import Verif.Props.Curves
import Verif.Props.PlotDates
import Verif.Props.CupedPlot
import Verif.Props.EffectPlot
import Verif.Props.EffectTable
import Verif.Props.Format
import Verif.Props.FormatTable
import Verif.Props.Summary
import Verif.Props.SummaryTable
import Verif.Props.SummaryFormat
import Verif.Model.Describe
import Verif.Spec.Describe
import Verif.Props.Describe
import Verif.Spec.Numbers
import Verif.Props.Numbers
import Verif.Spec.History
import Verif.Proofs.History
import Verif.Props.History
import Verif.Model.DeepDive
import Verif.Props.DeepDive
import Verif.Proofs.DeepDive
import Verif.Props.DeepDiveLine
import Verif.Model.OverTime
import Verif.Spec.OverTime
import Verif.Proofs.OverTime
import Verif.Props.OverTime
import Verif.Spec.Estimate
import Verif.Proofs.Estimate
import Verif.Props.Estimate
import Verif.Spec.Cuped
import Verif.Props.CupedExact
import Verif.Spec.EstimateAnalysis
import Verif.Props.EstimateAnalysis
import Verif.Props.ConstantEstimate
import Verif.Props.ValidateZero
import Verif.Props.PairedInterval
import Verif.Spec.ItemOrder
import Verif.Proofs.ItemOrder
import Verif.Props.ItemOrder
import Verif.Props.MetricNames
import Verif.Spec.EndToEnd
import Verif.Proofs.EndToEnd
import Verif.Props.CorrectRun
import Verif.Props.EndToEnd
import Verif.Model.Binom
import Verif.Spec.Ratio
import Verif.Proofs.Ratio
import Verif.Props.Ratio
import Verif.Props.EndToEndGroups
import Verif.Model.BinomTail
import Verif.Model.OneSample
import Verif.Proofs.BinomTail
import Verif.Props.Robustness
import Verif.Props.PointEstimates
import Verif.Props.ItemIds
import Verif.Proofs.Exchange
import Verif.Props.Exchange
import Verif.Props.ExchangeRatio
import Verif.Proofs.ExchangeRatio
import Verif.Props.ExchangeRatioTrimmed
import Verif.Model.Ks
import Verif.Proofs.Ks
import Verif.Proofs.KsDetect
import Verif.Proofs.BinomHoeffding
import Verif.Props.NullPValues
import Verif.Props.NullPValuesDetect
import Verif.Props.RobustnessDetect
import Verif.Props.SimulationOrder
import Verif.Spec.Assignments
import Verif.Spec.Randomisation
import Verif.Proofs.Assignments
import Verif.Proofs.Moments
import Verif.Proofs.Randomisation
import Verif.Props.Randomisation
import Verif.Props.RandomisationCuped
import Verif.Props.RandomisationCrossover
import Verif.Props.RandomisationTrimmed
import Verif.Spec.Report
import Verif.Proofs.Report
import Verif.Props.Report
import Verif.Props.ReportTotals
import Verif.Props.ReportLost
import Verif.Props.ReportRaw
import Verif.Props.ReportDifference
import Verif.Model.DesignStudy
import Verif.Spec.DesignStudy
import Verif.Proofs.DesignStudy
import Verif.Props.DesignStudy
import Verif.Props.DesignSession
import Verif.Props.DesignValidate
import Verif.Props.DesignExample
import Verif.Props.DesignExport
import Verif.Props.DesignExportExample
import Verif.Model.AnalyseStudy
import Verif.Spec.AnalyseStudy
import Verif.Proofs.StudyItems
import Verif.Props.AnalyseStudy
import Verif.Props.AnalyseStudyExample
import Verif.Props.AnalyseColumns
import Verif.Props.DaysPerPeriod
import Verif.Proofs.RowOrder
import Verif.Proofs.RowOrderChecks
import Verif.Proofs.RowOrderSim
import Verif.Proofs.RowOrderStudy
import Verif.Props.RowOrder
import Verif.Props.RowOrderStudy
import Verif.Props.RowOrderExample
import Verif.Proofs.LeftOut
import Verif.Props.LeftOut
import Verif.Props.LeftOutExample
import Verif.Props.RawEstimate
import Verif.Props.RawEstimateExample
import Verif.Props.Units
import Verif.Props.UnitsExample
import Verif.Props.ValidateZeros
import Verif.Props.OtherColumns
import Verif.Spec.ReportUnits
import Verif.Proofs.Scaling
import Verif.Proofs.ScalingTests
import Verif.Proofs.ScalingAnalysis
import Verif.Props.ReportUnits
import Verif.Props.ReportUnitsExample
import Verif.Proofs.ScalingWide
import Verif.Spec.DesignUnits
import Verif.Proofs.ScalingSim
import Verif.Props.DesignUnits
import Verif.Props.DesignUnitsExample
import Verif.Spec.SessionUnits
import Verif.Proofs.ScalingPrepare
import Verif.Proofs.ScalingSession
import Verif.Props.SessionUnits
import Verif.Spec.AnalyserUnits
import Verif.Proofs.ScalingExperiment
import Verif.Props.AnalyserUnits
import Verif.Props.AnalyserUnitsExample
import Verif.Conformance.Basic
import Verif.Conformance.Preparation
import Verif.Conformance.Design
import Verif.Conformance.Analysis
import Verif.Spec.Calendar
import Verif.Proofs.Calendar
import Verif.Proofs.CalendarChecks
import Verif.Props.Calendar
import Verif.Proofs.CalendarDesign
import Verif.Props.CalendarDesign
import Verif.Spec.FurtherColumns
import Verif.Proofs.AgreeOn
import Verif.Proofs.FurtherColumns
import Verif.Props.FurtherColumns
import Verif.Props.ExtremeLevels
import Verif.Model.Suffixes
import Verif.Spec.Suffixes
import Verif.Proofs.Suffixes
import Verif.Props.Suffixes
import Verif.Spec.ItemNames
import Verif.Proofs.ItemNames
import Verif.Proofs.ItemNameChecks
import Verif.Proofs.ItemNameBuild
import Verif.Props.LaxerChecks
import Verif.Props.ItemNames
import Verif.Spec.AnyNames
import Verif.Proofs.ItemShuffle
import Verif.Proofs.AnyNames
import Verif.Props.AnyNames
import Verif.Spec.DesignNames
import Verif.Proofs.DesignNames
import Verif.Props.DesignNames
import Verif.Spec.EstimateNames
import Verif.Proofs.EstimateNames
import Verif.Props.EstimateNames
import Verif.Spec.OtherDesigns
import Verif.Proofs.OtherDesigns
import Verif.Props.OtherDesigns
import Verif.Props.OtherDesignsExample
