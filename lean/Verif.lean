import Verif.Props.EventList
import Verif.Props.Control
import Verif.Props.Seasons
import Verif.Props.Random
import Verif.Props.Sampling
import Verif.Props.Capacity
import Verif.Props.Load
import Verif.Props.LoadFile
import Verif.Props.Names
import Verif.Props.Stats
import Verif.Props.Hour
import Verif.Props.Year
import Verif.Props.Converge
import Verif.Props.AnnualTable
import Verif.Props.Program
import Verif.Props.Restart
import Verif.Props.Outage
import Verif.Props.Network
import Verif.Props.Impedance
import Verif.Props.LoadFlow
import Verif.Props.Assign
import Verif.Props.Transm
import Verif.Props.Lu
import Verif.Props.Linp
import Verif.Props.LinpExact
import Verif.Props.Redispatch
import Verif.Props.RedispatchRun
import Verif.Props.RedispatchExact
import Verif.Props.RedispatchHour
import Verif.Props.RedispatchHourExact
import Verif.Props.HourShort
import Verif.Props.HourEnergy
import Verif.Props.Contracts
import Verif.Props.Pmsc
import Verif.Props.Report
import Verif.Props.Datax
import Verif.Props.CardRun
import Verif.Props.CardEnergy
import Verif.Props.CardWhole
import Verif.Props.History
import Verif.Props.CardReport
import Verif.Props.CardStop
import Verif.Props.Streams
import Verif.Model.ReadB
import Verif.Spec.Text
import Verif.Props.ReadB
import Verif.Model.Conls
import Verif.Props.Conls
import Verif.Props.ConlsRun
import Verif.Props.ConlsExact
import Verif.Model.Variants
import Verif.Props.Variants
import Verif.Spec.Float
import Verif.Model.Float
import Verif.Model.FloatCode
import Verif.Model.FloatReport
import Verif.Model.FloatControl
import Verif.Lemmas.Float
import Verif.Props.FloatSampling
import Verif.Props.FloatLoad
import Verif.Props.FloatConv
import Verif.Props.FloatReport
import Verif.Props.FloatControl
import Verif.Props.FloatHour
import Verif.Props.Snapshot
import Verif.Props.SnapshotCards
import Verif.Spec.Balance
import Verif.Props.CardBalance
import Verif.Spec.Frequency
import Verif.Props.Frequency
import Verif.Props.FrequencyRun
import Verif.Props.MeanCapacity
import Verif.Props.SeasonRefuted
import Verif.Props.PeakRefuted
import Verif.Props.CardDaily
import Verif.Spec.Annual
import Verif.Props.Annual
import Verif.Props.Compare
import Verif.Props.ShortCount
import Verif.Props.Ample
import Verif.Spec.Sharing
import Verif.Props.Sharing
import Verif.Props.SharingRule
import Verif.Spec.Changes
import Verif.Props.ConvergePool
import Verif.Props.SeedCard
import Verif.Props.AreaShare
import Verif.Props.AnnualArea
import Verif.Props.NetworkFree
import Verif.Spec.Figures
import Verif.Props.FinalReport
import Verif.Props.BetterArea
import Verif.Model.Text
import Verif.Model.Output
import Verif.Spec.Printed
import Verif.Props.Printed
import Verif.Props.ReportText
import Verif.Props.SummaryLine
import Verif.Props.OutputCards
import Verif.Props.Tiers
import Verif.Props.AnnualText
import Verif.Props.Output
import Verif.Spec.Pages
import Verif.Props.AnnualPages
import Verif.Model.PmscText
import Verif.Spec.MaintPage
import Verif.Props.MaintText
import Verif.Spec.LoadAccept
import Verif.Props.LoadAccept
import Verif.Props.AsWritten
import Verif.Props.Resume
import Verif.Props.ResumeCards
import Verif.Props.ResumeStop
import Verif.Props.NonVacuous
import Verif.Props.Abort
import Verif.Props.CompareDaily
import Verif.Props.BalanceRefuted
import Verif.Props.DerateRun
import Verif.Props.PoolTotals
import Verif.Props.PoolConverge
import Verif.Props.SamplingRun
import Verif.Props.PeakRun
import Verif.Props.PagesRefuted
import Verif.Props.PeakArea
