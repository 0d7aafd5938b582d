import Verif.Props.Base64
import Verif.Props.GeoUtil
import Verif.Props.Sort
import Verif.Props.Comm
import Verif.Props.PointDist
import Verif.Props.Rng
import Verif.Props.TpetraUtil
import Verif.Props.CmdParser
import Verif.Props.CmdGet
import Verif.Props.Config
import Verif.Props.Equatn
import Verif.Props.Buffer
import Verif.Props.BCQP
import Verif.Props.LCP
import Verif.Props.ConOp
import Verif.Props.Collector
import Verif.Props.Boundary
import Verif.Props.DCP
import Verif.Props.Near
import Verif.Props.BoundaryCol
import Verif.Props.Mobility
import Verif.Props.Output
import Verif.Props.Snapshot
import Verif.Props.Crash
import Verif.Props.Ids
import Verif.Props.Stats
import Verif.Props.Links
import Verif.Props.LinkBodies
import Verif.Props.Wrap
import Verif.Props.Mix
import Verif.Props.Init
import Verif.Props.Vtp
import Verif.Props.Radix
import Verif.Props.Morton
import Verif.Props.Box
import Verif.Props.Tree
import Verif.Props.Moment
import Verif.Props.Walk
import Verif.Props.Image
import Verif.Props.RootCell
import Verif.Props.Let
import Verif.Props.Force
import Verif.Axioms
import Verif.Props.Domain
import Verif.Props.Migrate
import Verif.Props.Place
import Verif.Props.Collide
import Verif.Props.MixTree
import Verif.Props.MT
import Verif.Props.MemPool
import Verif.Props.RunStep
import Verif.Props.NoOverlap
import Verif.Props.NoCross
import Verif.Props.Sim
import Verif.Props.Converge
import Verif.Props.Springs
import Verif.Props.Grow
import Verif.Props.Momentum
import Verif.Props.Motion
import Verif.Props.Work
import Verif.Props.Resume
import Verif.Props.CheckErr
import Verif.Props.Layout
import Verif.Props.Alike
import Verif.Props.RandomProblem
import Verif.Props.FloatStep
import Verif.Props.GaussLegendre
import Verif.Props.CircularQ
import Verif.Props.LogPool
import Verif.Props.VolFrac
import Verif.Props.Registry
import Verif.Props.Dump
import Verif.Props.Dilute
import Verif.Props.DiluteRun
import Verif.Props.DCPError
import Verif.Props.Rods
import Verif.Props.Layer
import Verif.Props.Folders
import Verif.Props.Level
import Verif.Props.Plane
import Verif.Props.Missed
import Verif.Props.Points
import Verif.Props.Rest
import Verif.Props.Obstacle
import Verif.Props.Limp
import Verif.Props.LimpRun
import Verif.Props.Displace
import Verif.Props.Rigid
import Verif.Props.Rename
import Verif.Props.RenameRun
import Verif.Props.RenameFalse
import Verif.Props.Units
import Verif.Props.UnitsBrown
import Verif.Props.UnitsTurn
import Verif.Props.UnitsRun
import Verif.Props.Headless
import Verif.Props.HeadlessTurn
import Verif.Props.HeadlessRun
import Verif.Props.RotatingLog
import Verif.Props.DupFilter
import Verif.Props.LCPTest
import Verif.Props.LoadLevels
import Verif.Props.StressTurn
import Verif.Props.CreateDir
import Verif.Props.DailyLog
import Verif.Props.HourlyLog
import Verif.Props.LogSinks
import Verif.Props.VtkText
