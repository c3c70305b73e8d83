import Verif.Props.Detect
import Verif.Props.FileBase
import Verif.Props.FastDict
import Verif.Props.FastLine
import Verif.Props.FastFile
import Verif.Props.FastTable
import Verif.Props.FastBin
import Verif.Props.Mann
import Verif.Props.TurbSim
import Verif.Props.Hawc2
import Verif.Props.HawcAe
import Verif.Props.Htc
import Verif.Props.Vtk
import Verif.Props.Bladed
import Verif.Props.Flex
import Verif.Props.Tecplot
import Verif.Props.Deck
import Verif.Props.Graph
import Verif.Props.AsciiComp
import Verif.Props.StepWind
import Verif.Props.Csv
import Verif.Props.Writers
import Verif.Props.Polar
import Verif.Props.Summary
import Verif.Props.AsciiOut
import Verif.Props.CsvLayout
import Verif.Props.FastTypes
import Verif.Props.ExtPtfm
import Verif.Props.FastBinAll
import Verif.Props.FastRead
import Verif.Props.FastText
import Verif.Props.FastHand
import Verif.Props.FastLoose
import Verif.Props.TecplotFile
import Verif.Props.FastBridge
import Verif.Props.FastAD14
import Verif.Props.Lin
import Verif.Props.Rosco
import Verif.Props.LinFrame
import Verif.Props.FlexPro
import Verif.Props.FlexBld
import Verif.Props.Yaml
import Verif.Props.St
import Verif.Props.StBeam
import Verif.Props.FastFrame
import Verif.Props.Hawc2Sel
import Verif.Props.Bhawc
import Verif.Props.DeckRead
import Verif.Props.TurbSimTS
import Verif.Props.MannTurb
import Verif.Props.BladedRead
import Verif.Props.BModes
import Verif.Props.Hs2
import Verif.Props.FlexDoc
import Verif.Props.FlexSens
import Verif.Props.WaveKin
import Verif.Props.UserFmt
import Verif.Props.Cactus
import Verif.Props.FastGraph
import Verif.Props.Sheets
import Verif.Props.VtkFile
import Verif.Props.SumFrame
import Verif.Props.HtcBody
import Verif.Props.WriteTest
import Verif.Props.HtcCompare
import Verif.Props.WndFile
import Verif.Props.HtcInclude
import Verif.Props.DocFrame
import Verif.Props.HtcEdit
import Verif.Props.HtcQuery
import Verif.Props.HtcFiles
import Verif.Props.DeckFiles
import Verif.Props.NetCdf
import Verif.Props.HtcName
import Verif.Props.HtcAdd
import Verif.Props.HtcHydro
import Verif.Props.HtcMann
