import Verif.Model.Bytes
import Verif.Model.StrMap
import Verif.Model.Properties
import Verif.Model.PropertyOps
import Verif.Model.Message
import Verif.Model.MessageOps
import Verif.Spec.PropertyMap
import Verif.Spec.Wire
import Verif.Lemmas.StrMap
import Verif.Lemmas.Message
import Verif.Lemmas.MessageIO
import Verif.Lemmas.MessageOps
import Verif.Lemmas.Properties
import Verif.Props.Properties
import Verif.Props.Message
import Verif.Model.Base64
import Verif.Lemmas.Base64
import Verif.Model.Outcome
import Verif.Model.Decimal
import Verif.Model.Image
import Verif.Spec.Image
import Verif.Props.Base64
import Verif.Lemmas.Decimal
import Verif.Lemmas.Image
import Verif.Props.Image
import Verif.Model.Formats
import Verif.Props.Formats
import Verif.Model.Float
import Verif.Lemmas.Float
import Verif.Lemmas.NumText
import Verif.Lemmas.FloatText
import Verif.Model.NumText
import Verif.Spec.Float
import Verif.Lemmas.FloatValue
import Verif.Props.Numbers
import Verif.Model.RegionCodec
import Verif.Lemmas.RegionCodec
import Verif.Props.RegionCodec
import Verif.Model.FloatOps
import Verif.Model.Geometry
import Verif.Lemmas.FloatOps
import Verif.Lemmas.Bounds
import Verif.Lemmas.Sort
import Verif.Lemmas.Raster
import Verif.Props.Geometry
import Verif.Props.Raster
import Verif.Lemmas.RasterNodes
import Verif.Lemmas.Window
import Verif.Lemmas.RectRaster
import Verif.Lemmas.Overlap
import Verif.Lemmas.Jaccard
import Verif.Props.Overlap
import Verif.Model.RegionApi
import Verif.Lemmas.RegionApi
import Verif.Props.RegionApi
import Verif.Model.Lists
import Verif.Model.Handle
import Verif.Model.ObjectHeap
import Verif.Spec.ObjectLists
import Verif.Lemmas.Lists
import Verif.Lemmas.ObjectHeap
import Verif.Lemmas.ObjectSteps
import Verif.Props.Lists
import Verif.Props.Handle
import Verif.Props.Handshake
import Verif.Props.Session
import Verif.Model.Wrapper
import Verif.Model.WrapperValue
import Verif.Spec.Wrapper
import Verif.Spec.Values
import Verif.Lemmas.Wrapper
import Verif.Lemmas.Values
import Verif.Props.Wrapper
import Verif.Props.Values
import Verif.Model.Endpoint
import Verif.Spec.Single
import Verif.Props.Endpoint
import Verif.Props.Logger
import Verif.Props.Watchdog
import Verif.Props.Port
import Verif.Props.Command
import Verif.Props.Trajectory
import Verif.Spec.Polygon
import Verif.Lemmas.PointPolygon
import Verif.Props.Polygon
import Verif.Model.Runner
import Verif.Spec.Runner
import Verif.Lemmas.Runner
import Verif.Props.Runner
import Verif.Model.TextBuffer
import Verif.Spec.TextBuffer
import Verif.Lemmas.TextBuffer
import Verif.Props.TextBuffer
import Verif.Spec.TrackerProcess
import Verif.Model.TrackerProcess
import Verif.Lemmas.TrackerProcess
import Verif.Props.TrackerProcess
import Verif.Model.Lock
import Verif.Spec.Lock
import Verif.Props.Lock
import Verif.Model.TimedWait
import Verif.Props.TimedWait
import Verif.Spec.SotSession
import Verif.Props.SotSession
import Verif.Model.ListWrapper
import Verif.Spec.ListWrapper
import Verif.Lemmas.ListWrapper
import Verif.Props.ListWrapper
import Verif.Model.Environment
import Verif.Spec.Environment
import Verif.Lemmas.Environment
import Verif.Props.Environment
import Verif.Model.Descriptors
import Verif.Spec.Descriptors
import Verif.Lemmas.Descriptors
import Verif.Props.Descriptors
import Verif.Spec.Grammar
import Verif.Lemmas.Grammar
import Verif.Props.Grammar
import Verif.Model.CliImages
import Verif.Spec.CliImages
import Verif.Lemmas.CliImages
import Verif.Props.CliImages
import Verif.Props.RegionText
import Verif.Props.FormatTexts
import Verif.Props.CppHandle
import Verif.Props.Parameters
import Verif.Props.LogThreads
import Verif.Props.OpenCv
import Verif.Model.Matlab
import Verif.Spec.Matlab
import Verif.Lemmas.Matlab
import Verif.Props.Matlab
import Verif.Props.MatlabData
import Verif.Model.Options
import Verif.Spec.Options
import Verif.Lemmas.Options
import Verif.Props.Options
import Verif.Model.Tester
import Verif.Spec.Tester
import Verif.Props.Tester
import Verif.Model.MexServer
import Verif.Spec.MexServer
import Verif.Props.MexServer
import Verif.Props.MexExchange
import Verif.Props.MexEnd
import Verif.Model.MexClient
import Verif.Spec.MexClient
import Verif.Props.MexClient
import Verif.Model.PropertyMaps
import Verif.Model.Sockets
import Verif.Spec.Sockets
import Verif.Lemmas.PropertyMaps
import Verif.Lemmas.Sockets
import Verif.Props.PropertyMaps
import Verif.Props.Sockets
import Verif.Model.Python
import Verif.Spec.Python
import Verif.Lemmas.Python
import Verif.Props.Python
import Verif.Model.PyValues
import Verif.Spec.PyValues
import Verif.Lemmas.PyValues
import Verif.Props.PyImages
import Verif.Props.PyRegions
import Verif.Model.PySession
import Verif.Spec.PySession
import Verif.Lemmas.PySession
import Verif.Props.PySession
import Verif.Model.PyStart
import Verif.Spec.PyStart
import Verif.Props.PyStart
import Verif.Props.LogCalls
import Verif.Props.PolygonRaster
import Verif.Model.PyMemory
import Verif.Spec.PyMemory
import Verif.Lemmas.PyMemory
import Verif.Lemmas.PyMemoryRun
import Verif.Props.PyMemory
import Verif.Model.PyDrop
import Verif.Spec.PyDrop
import Verif.Props.PyDrop
import Verif.Lemmas.GridFloat
import Verif.Model.CMemory
import Verif.Spec.CMemory
import Verif.Lemmas.CMemory
import Verif.Lemmas.CMemoryCalls
import Verif.Props.CMemory
import Verif.Model.CliMain
import Verif.Spec.CliMain
import Verif.Props.CliMain
import Verif.Model.StaticTracker
import Verif.Model.TrackerLink
import Verif.Lemmas.Link
import Verif.Lemmas.PhasedRun
import Verif.Lemmas.StaticRun
import Verif.Spec.StaticRun
import Verif.Props.StaticRun
import Verif.Model.Player
import Verif.Spec.Player
import Verif.Props.Player
import Verif.Props.CvTrackers
import Verif.Model.LoopTracker
import Verif.Spec.LoopRun
import Verif.Lemmas.LoopRun
import Verif.Props.LoopRun
import Verif.Lemmas.BrokenRun
import Verif.Props.BrokenRun
import Verif.Model.Drawing
import Verif.Spec.Drawing
import Verif.Props.Drawing
import Verif.Model.DebugText
import Verif.Spec.DebugText
import Verif.Props.DebugText
import Verif.Model.PyInterrupt
import Verif.Spec.PyInterrupt
import Verif.Lemmas.ReaderAscii
import Verif.Props.PyInterrupt
import Verif.Model.MapMemory
import Verif.Spec.MapMemory
import Verif.Lemmas.MapMemory
import Verif.Lemmas.MapMemoryPut
import Verif.Lemmas.MapMemoryRun
import Verif.Props.MapMemory
import Verif.Spec.ClientWait
import Verif.Props.ClientWait
import Verif.Props.Introduction
import Verif.Props.ErrorText
import Verif.Model.RegionMemory
import Verif.Spec.RegionMemory
import Verif.Lemmas.RegionMemory
import Verif.Props.RegionMemory
import Verif.Model.ImageMemory
import Verif.Spec.ImageMemory
import Verif.Lemmas.ImageMemory
import Verif.Props.ImageMemory
import Verif.Model.PyErrors
import Verif.Spec.PyErrors
import Verif.Lemmas.PyErrors
import Verif.Props.PyErrors
import Verif.Model.PyTracker
import Verif.Spec.PyTracker
import Verif.Lemmas.PyTracker
import Verif.Props.PyTracker
import Verif.Model.MortalTracker
import Verif.Spec.MortalRun
import Verif.Lemmas.MortalRun
import Verif.Props.MortalRun
import Verif.Model.Tutorial
import Verif.Spec.Tutorial
import Verif.Lemmas.Tutorial
import Verif.Props.Tutorial
import Verif.Props.Ncc
import Verif.Props.NccSearch
import Verif.Props.NccMatlab
import Verif.Props.ChildStatus
import Verif.Props.Timer
import Verif.Props.MexStream
import Verif.Props.ClientLocks
import Verif.Props.Debug
import Verif.Props.Resources
import Verif.Props.PyText
import Verif.Audit
