import Verif.Common.PyDict
import Verif.Summary.Props
import Verif.RNet.Props
import Verif.Skinny.Props
import Verif.Maxwell.Props
import Verif.Rcx25Netlist.Props
import Verif.SolverLog.Props
import Verif.CapMatrix.Props
import Verif.Reduce.Props
import Verif.Pipeline.Props
import Verif.PexMode.Props
import Verif.Sweep.Props
import Verif.Finalize.Props
import Verif.ListFile.Props
import Verif.Stack3d.Props
import Verif.TechInfo.Props
import Verif.Overlap.Props
import Verif.Fringe.Props
import Verif.Shapes.Props
import Verif.Lvs.Props
import Verif.RRequest.Props
import Verif.Options.Props
import Verif.Rdb.Props
import Verif.NetJson.Props
import Verif.LogFiles.Props
import Verif.LvsCache.Props
import Verif.CliArgs.Props
import Verif.LayerMap.Props
import Verif.Engine25.Model
import Verif.Engine25.Layers
import Verif.Engine25.Overlaps
import Verif.Engine25.Props
import Verif.Magic.Model
import Verif.Magic.Lemmas
import Verif.Magic.Spec
import Verif.Magic.Parse
import Verif.Magic.Files
import Verif.Magic.Script
import Verif.Magic.Props
import Verif.Checker.Model
import Verif.Checker.Spec
import Verif.Checker.Line
import Verif.Checker.Split
import Verif.Checker.Rounds
import Verif.Checker.Complete
import Verif.Checker.Props
import Verif.Checker.Stl
import Verif.Wall.Model
import Verif.Wall.Props
import Verif.Runners.Path
import Verif.Runners.Model
import Verif.Runners.Props
import Verif.Runners.Main
import Verif.Reporter.Model
import Verif.Reporter.Props
import Verif.Reporter.Rex
import Verif.Stack3d.Check
import Verif.Fringe.Total
import Verif.Pdk.Model
import Verif.Pdk.Sky130A
import Verif.Pdk.Sg13g2
import Verif.Pdk.Stack
import Verif.Pdk.Cap
import Verif.RRequest.Ok
import Verif.Pdk.Res
import Verif.RRequest.Full
import Verif.Pdk.Request
import Verif.Fringe.Bands
import Verif.Engine25.Edges
import Verif.Pdk.Geometry
import Verif.Engine25.Look
import Verif.Engine25.Own
import Verif.Engine25.Wires
import Verif.Engine25.Moves
import Verif.Engine25.Near
import Verif.Pdk.Moved
import Verif.Pdk.Nearby
import Verif.Pdk.Pins
import Verif.LayerMap.Files
import Verif.LayerMap.Shipped
import Verif.Engine25.Plate
import Verif.Pdk.Plate
import Verif.Engine25.Rename
import Verif.Pdk.Renamed
import Verif.Runners.Svg
import Verif.RNet.Exact
import Verif.Engine25.Redraw
import Verif.Pdk.Redraw
import Verif.Logging.Model
import Verif.Logging.Props
import Verif.Runners.MagicRun
import Verif.Runners.Convert
import Verif.Engine25.Crossing
import Verif.Engine25.Strips
import Verif.Pdk.Crossing
import Verif.Runners.Rcx25Run
import Verif.Runners.Together
import Verif.RRequest.Handover
import Verif.Runners.Input
import Verif.Runners.Prepare
import Verif.Runners.Whole
import Verif.Runners.Analyzer
import Verif.RNet.Print
import Verif.Engine25.Shown
import Verif.Engine25.Places
import Verif.Engine25.OverlapShown
import Verif.RNet.Graph
import Verif.RNet.Bound
import Verif.RNet.Rounded
import Verif.LayerNames.Model
import Verif.LayerNames.Props
import Verif.Common.Rounding
import Verif.Summary.Rounded
import Verif.Rounding.Overlap
import Verif.Rounding.Fringe
import Verif.Rounding.Props
import Verif.Summary.Order
import Verif.Rcx25Netlist.Order
import Verif.Common.Stem
import Verif.TechInfo.Lookups
import Verif.RNet.Nodes
import Verif.Engine25.Stacked
import Verif.Engine25.Halo
import Verif.Pdk.Halo
import Verif.RRequest.Ports
import Verif.Runners.Started
import Verif.RNetlist.Model
import Verif.RNetlist.Props
import Verif.RNetlist.Examples
import Verif.RNetlist.Values
import Verif.LvsRules.Model
import Verif.LvsRules.Check
import Verif.LvsRules.Sky130A
import Verif.LvsRules.Sg13g2
import Verif.LvsRules.Vias
import Verif.LvsRules.Conductors
import Verif.LvsRules.Resistors
import Verif.LvsRules.Joins
import Verif.LvsRules.Labels
import Verif.LvsRules.Mim
import Verif.LvsRules.Extracted
import Verif.Decks.Options
import Verif.Decks.Reader
import Verif.Decks.ReaderProps
import Verif.Decks.Values
import Verif.Decks.Writer
import Verif.Decks.Combiner
import Verif.LvsRules.Device
import Verif.LvsRules.Sky130ADevices
import Verif.LvsRules.Sg13g2Devices
import Verif.LvsRules.Fets
import Verif.LvsRules.Terminals
import Verif.Decks.Lines
import Verif.Decks.SkyNetlist
import Verif.LvsRules.Passives
import Verif.Decks.Measure
import Verif.Fringe.Flat
import Verif.Decks.Capacitors
import Verif.Decks.Glob
import Verif.Decks.Widths
import Verif.Decks.Inductors
import Verif.Decks.Emitters
import Verif.Decks.Vpp
import Verif.Decks.VppPlates
import Verif.Decks.HvNpn
import Verif.Decks.SkyBjt
import Verif.Decks.EsdDiodes
import Verif.Decks.Clamps
import Verif.Decks.Taps
