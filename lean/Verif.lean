import Verif.Ec.Model
import Verif.Ec.Spec
import Verif.Ec.Lemmas
import Verif.Ec.DecLemmas
import Verif.Ec.Adapt
import Verif.Ec.Theorems
import Verif.Ec.Backends
import Verif.Ec.BackendThms
import Verif.Ec.SpecReader
import Verif.Ec.Codes
import Verif.Ec.CodeThms
import Verif.Cdf.Log
import Verif.Cdf.LogThms
import Verif.Cdf.Tables
import Verif.Cdf.Init
import Verif.Sched.Model
import Verif.Sched.Spec
import Verif.Sched.Plan
import Verif.Sched.PlanInv
import Verif.Sched.Slots
import Verif.Sched.Tab
import Verif.Sched.Inv
import Verif.Sched.Build
import Verif.Sched.Loop
import Verif.Sched.Send
import Verif.Sched.Receive
import Verif.Sched.Rcv
import Verif.Sched.Dec
import Verif.Sched.Hist
import Verif.Sched.Run
import Verif.Sched.Theorems
import Verif.Sched.Determinism
import Verif.Sched.Findings
import Verif.Chan.Model
import Verif.Chan.Theorems
import Verif.Chan.Findings
import Verif.Chan.Gop
import Verif.Chan.GopScene
import Verif.Chan.GopInv
import Verif.Chan.GopTheorems
import Verif.Chan.GopFindings
import Verif.Tile.Model
import Verif.Tile.Spec
import Verif.Tile.Lemmas
import Verif.Tile.Theorems
import Verif.Tile.Findings
import Verif.Hdr.Bits
import Verif.Hdr.Model
import Verif.Hdr.Spec
import Verif.Hdr.Tac
import Verif.Hdr.Seq
import Verif.Hdr.Frame
import Verif.Hdr.TileHdr
import Verif.Hdr.Params
import Verif.Hdr.Filters
import Verif.Hdr.Modes
import Verif.Hdr.Theorems
import Verif.Hdr.Ok
import Verif.Hdr.Build
import Verif.Hdr.BuildThms
import Verif.Hdr.Stream
import Verif.Hdr.Examples
import Verif.Obu.Spec
import Verif.Obu.Model
import Verif.Obu.Lemmas
import Verif.Obu.Units
import Verif.Obu.Packets
import Verif.Obu.Examples
import Verif.Hdr.Findings
import Verif.Quant.Tables
import Verif.Quant.Scans
import Verif.Quant.Model
import Verif.Quant.Divu
import Verif.Quant.Select
import Verif.Quant.Choose
import Verif.Quant.ScanThms
import Verif.Quant.Level
import Verif.Quant.QuantThms
import Verif.Misc.Ivf
import Verif.Misc.Kmeans
import Verif.Transform.Wht
import Verif.Rate.Model
import Verif.Rate.Lemmas
import Verif.Rate.Safe
import Verif.Rate.Findings
import Verif.Rate.Reservoir
import Verif.Rate.Codec
import Verif.Rate.FirstPass
import Verif.Rate.SecondPass
import Verif.Rate.RoundTrip
import Verif.Config.Model
import Verif.Config.Thms
import Verif.Config.Findings
import Verif.Coef.Spec
import Verif.Coef.Model
import Verif.Coef.Levels
import Verif.Coef.Contexts
import Verif.Coef.Reads
import Verif.Coef.Loops
import Verif.Coef.Eob
import Verif.Coef.Txb
import Verif.Coef.Block
import Verif.Coef.Cdfs
import Verif.Coef.Thms
import Verif.Cdef.Model
import Verif.Cdef.Spec
import Verif.Cdef.Direction
import Verif.Cdef.Filter
import Verif.Cdef.Theorems
import Verif.Deblock.Model
import Verif.Deblock.Spec
import Verif.Deblock.Kernel
import Verif.Deblock.Edge
import Verif.Deblock.Order
import Verif.Deblock.Theorems
import Verif.Deblock.Levels
import Verif.Lrf.Model
import Verif.Lrf.Spec
import Verif.Lrf.Box
import Verif.Lrf.Bounds
import Verif.Lrf.Stripe
import Verif.Lrf.Pixel
import Verif.Lrf.Loop
import Verif.Lrf.Theorems
import Verif.Lrf.Setup
import Verif.Mc.Model
import Verif.Mc.Spec
import Verif.Mc.Fill
import Verif.Mc.Taps
import Verif.Mc.Sample
import Verif.Mc.Block
import Verif.Mc.Ref
import Verif.Mc.Theorems
import Verif.Intra.Model
import Verif.Intra.Spec
import Verif.Intra.Edges
import Verif.Intra.Assemble
import Verif.Intra.Plain
import Verif.Intra.EdgeFilter
import Verif.Intra.Zones
import Verif.Intra.Directional
import Verif.Intra.Block
import Verif.Intra.Theorems
import Verif.Intra.Cfl
import Verif.Intra.OrderSpec
import Verif.Intra.OrderBlock
import Verif.Intra.OrderTree
import Verif.Intra.Sites
import Verif.Intra.Order
import Verif.Intra.FilterType
import Verif.Itx.Stages
import Verif.Itx.Spec
import Verif.Itx.Sym
import Verif.Itx.Model
import Verif.Itx.Sound
import Verif.Itx.OneD
import Verif.Itx.Theorems
import Verif.Itx.Block
import Verif.Mvref.Spec
import Verif.Mvref.Model
import Verif.Mvref.Order
import Verif.Mvref.Stack
import Verif.Mvref.Sort
import Verif.Mvref.Scan
import Verif.Mvref.Rows
import Verif.Mvref.Area
import Verif.Mvref.Cols
import Verif.Mvref.Final
import Verif.Mvref.Extra
import Verif.Mvref.Theorems
import Verif.Mvref.SynSpec
import Verif.Mvref.Syntax
import Verif.Mvref.Comp
import Verif.Mvref.Motion
import Verif.Mvref.Even
import Verif.Mvref.Coded
import Verif.Mvref.Range
import Verif.Block.Spec
import Verif.Block.Model
import Verif.Block.Ctx
import Verif.Block.Rt
import Verif.Block.Blk
import Verif.Block.Ctx2
import Verif.Block.Tile
import Verif.Block.Coded
import Verif.LogExp.Model
import Verif.LogExp.Table
import Verif.LogExp.Log
import Verif.LogExp.Blog
import Verif.LogExp.Exp
import Verif.LogExp.Bexp
import Verif.LogExp.Round
import Verif.LogExp.Theorems
import Verif.TxSize.Spec
import Verif.TxSize.Model
import Verif.TxSize.Front
import Verif.TxSize.Rt
import Verif.TxSize.Blk
import Verif.TxSize.Tile
import Verif.TxSize.Theorems
import Verif.Resid.Spec
import Verif.Resid.Model
import Verif.Resid.Tables
import Verif.Resid.Fit
import Verif.Resid.Blocks
import Verif.Resid.Rt
import Verif.Resid.Theorems
import Verif.Whole.Spec
import Verif.Whole.Model
import Verif.Whole.Rt
import Verif.Whole.Blk
import Verif.Whole.Tile
import Verif.Whole.Theorems
import Verif.LoopSyn.Spec
import Verif.LoopSyn.Model
import Verif.LoopSyn.Unit
import Verif.LoopSyn.Blocks
import Verif.LoopSyn.Geo
import Verif.LoopSyn.Decide
import Verif.LoopSyn.Flush
import Verif.LoopSyn.Queue
import Verif.LoopSyn.Theorems
import Verif.LoopSyn.Setup
import Verif.LoopSyn.Examples
import Verif.Dist.Model
import Verif.Dist.Spec
import Verif.Dist.Rsqrt
import Verif.Dist.Boost
import Verif.Dist.Sums
import Verif.Dist.Args
import Verif.Dist.Theorems
import Verif.Dist.Ten
import Verif.Seg.Model
import Verif.Seg.Spec
import Verif.Seg.Table1
import Verif.Seg.Table2
import Verif.Seg.Blog
import Verif.Seg.Delta
import Verif.Seg.First
import Verif.Seg.State
import Verif.Seg.Norm
import Verif.Seg.Theorems
import Verif.Metric.Model
import Verif.Metric.Spec
import Verif.Metric.Had
import Verif.Metric.Theorems
import Verif.Search.Model
import Verif.Search.Spec
import Verif.Search.Lemmas
import Verif.Search.Stages
import Verif.Search.Theorems
import Verif.Search.Passes
import Verif.RateEst.Table
import Verif.RateEst.Model
import Verif.RateEst.Spec
import Verif.RateEst.Theorems
import Verif.RateEst.Dist
import Verif.CflSearch.Model
import Verif.CflSearch.Spec
import Verif.CflSearch.Theorems
import Verif.Visible.Model
import Verif.Visible.Spec
import Verif.Visible.Theorems
import Verif.Visible.Edge
import Verif.Visible.Weights
import Verif.Splat.Model
import Verif.Splat.Spec
import Verif.Splat.Theorems
