import Verif.Lemmas.Dict
import Verif.Lemmas.Noise
import Verif.Lemmas.NoiseErase
import Verif.Lemmas.Pipeline
import Verif.Lemmas.PipelineKeys
import Verif.Lemmas.ResultKeys
import Verif.Lemmas.Stack
import Verif.Lemmas.Table
import Verif.Model.Build
import Verif.Model.Channels
import Verif.Model.Command
import Verif.Model.Contrib
import Verif.Model.Diffuse
import Verif.Model.Foreground
import Verif.Model.Hdf5
import Verif.Model.Import
import Verif.Model.Instrument
import Verif.Model.Loaded
import Verif.Model.Log
import Verif.Model.LogPool
import Verif.Model.Meta
import Verif.Model.Misc
import Verif.Model.Mpi
import Verif.Model.Noise
import Verif.Model.NoiseAgain
import Verif.Model.Num
import Verif.Model.Optics
import Verif.Model.Options
import Verif.Model.Pipeline
import Verif.Model.Planck
import Verif.Model.Plotter
import Verif.Model.Program
import Verif.Model.Psf
import Verif.Model.Py
import Verif.Model.Read
import Verif.Model.Rebin
import Verif.Model.RebinInt
import Verif.Model.RebinMore
import Verif.Model.Run
import Verif.Model.SignalUnits
import Verif.Model.Slash
import Verif.Model.SlashChannel
import Verif.Model.Source
import Verif.Model.Spawn
import Verif.Model.Table
import Verif.Model.TableFile
import Verif.Model.TableUnits
import Verif.Model.TargetList
import Verif.Model.Task
import Verif.Model.Units
import Verif.Model.UnitsNoise
import Verif.Model.Whole
import Verif.Props.Aperture
import Verif.Props.Bright
import Verif.Props.BrightDemo
import Verif.Props.Budget
import Verif.Props.Build
import Verif.Props.BuildDemo
import Verif.Props.BuildNeeds
import Verif.Props.BuildOk
import Verif.Props.BuildValues
import Verif.Props.BuildValuesDemo
import Verif.Props.Channels
import Verif.Props.Command
import Verif.Props.CommandCall
import Verif.Props.CommandLine
import Verif.Props.Complete
import Verif.Props.CompleteDemo
import Verif.Props.Contrib
import Verif.Props.ContribBuilt
import Verif.Props.Diffuse
import Verif.Props.Emission
import Verif.Props.Emitters
import Verif.Props.EndToEnd
import Verif.Props.Foreground
import Verif.Props.Grid
import Verif.Props.Hdf5
import Verif.Props.Import
import Verif.Props.Instrument
import Verif.Props.Lit
import Verif.Props.LitBuilt
import Verif.Props.LitDemo
import Verif.Props.Loaded
import Verif.Props.Log
import Verif.Props.LogPool
import Verif.Props.LogRun
import Verif.Props.Meta
import Verif.Props.Misc
import Verif.Props.Mpi
import Verif.Props.Noise
import Verif.Props.NoiseAgain
import Verif.Props.NoiseBounds
import Verif.Props.NoiseSplit
import Verif.Props.NoiseTable
import Verif.Props.NonNeg
import Verif.Props.Num
import Verif.Props.ObserveAll
import Verif.Props.ObserveOk
import Verif.Props.Omega
import Verif.Props.Optics
import Verif.Props.Options
import Verif.Props.Pipeline
import Verif.Props.PipelineExact
import Verif.Props.Planck
import Verif.Props.PlotCommand
import Verif.Props.PlotContrib
import Verif.Props.PlotDemo
import Verif.Props.PlotMore
import Verif.Props.PlotRun
import Verif.Props.Plotter
import Verif.Props.Positive
import Verif.Props.Program
import Verif.Props.ProgramDemo
import Verif.Props.ProgramPlots
import Verif.Props.Propagate
import Verif.Props.Psf
import Verif.Props.PsfSelect
import Verif.Props.PsfUse
import Verif.Props.RangeUnits
import Verif.Props.Read
import Verif.Props.ReadDemo
import Verif.Props.ReadEntries
import Verif.Props.Rebin
import Verif.Props.RebinExact
import Verif.Props.RebinInt
import Verif.Props.RebinMore
import Verif.Props.Run
import Verif.Props.RunDemo
import Verif.Props.RunMore
import Verif.Props.RunPlots
import Verif.Props.RunSave
import Verif.Props.SignalUnits
import Verif.Props.Slash
import Verif.Props.SlashChannel
import Verif.Props.Solution
import Verif.Props.Source
import Verif.Props.SourceSelect
import Verif.Props.Spawn
import Verif.Props.SpawnDemo
import Verif.Props.Table
import Verif.Props.TableFile
import Verif.Props.TableUnits
import Verif.Props.TableUnitsDemo
import Verif.Props.TargetFiles
import Verif.Props.TargetFormats
import Verif.Props.TargetList
import Verif.Props.TargetSheet
import Verif.Props.Task
import Verif.Props.Units
import Verif.Props.UnitsDemo
import Verif.Props.UnitsNoise
import Verif.Props.Whole
import Verif.Props.WholeDemo
import Verif.Props.WholePlots
import Verif.Props.WholeThenPlot
import Verif.Spec.Noise
