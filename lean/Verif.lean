import Verif.Topo.Props
import Verif.Halo.Props
import Verif.Halo.Rounds
import Verif.Halo.Unify
import Verif.Halo.UnifyBox
import Verif.Comm.Props
import Verif.Mesh.Props
import Verif.FV.Props
import Verif.Flux.Freestream
import Verif.Flux.Upwind2
import Verif.Gen.Checks
import Verif.Time.Dual
import Verif.Thermo.CubicBranch
import Verif.Thermo.Enthalpy
import Verif.Sensor.Props
import Verif.Run.Loop
import Verif.Run.TrueCfl
import Verif.Comm.JobProps
import Verif.Setup.Balance
import Verif.Dual.Props
import Verif.BC.Stag
import Verif.BC.ReadBcsProps
import Verif.Trace.Props
import Verif.BC.Spline
import Verif.BC.Periodic
import Verif.Diff.Block
import Verif.Trans.Chung
import Verif.Trans.ChungSpec
import Verif.Config.Props
import Verif.Config.Dict
import Verif.Config.File
import Verif.Config.SpData
import Verif.Config.Stencil
import Verif.Subgrid.Props
import Verif.Grid.CreateProps
import Verif.Grid.Annulus
import Verif.Grid.HaloGen
import Verif.IO.Props
import Verif.IO.Grid
import Verif.IO.Parallel
import Verif.IO.Names
import Verif.IO.Conn
import Verif.Interp.Props
import Verif.Interp.Main
import Verif.Interp.MainProps
import Verif.Interp.MainReads
import Verif.Util.Channel
import Verif.Util.GridPro
import Verif.Util.GridProGrid
import Verif.Util.Icem
import Verif.Util.IcemGrid
import Verif.Util.Verify
import Verif.Util.VerifyProps
import Verif.Util.VerifyTable
import Verif.Util.VerifyRecip
import Verif.Util.Sector
import Verif.Util.SectorProps
import Verif.Util.Cut
import Verif.Util.CutPath
import Verif.Util.CutCells
import Verif.Util.CutMain
import Verif.Util.CutBox
import Verif.Util.CutSize
import Verif.Chem.Props
import Verif.Chem.Red22Fall
import Verif.Dual.Dtau
import Verif.Whole.Model
import Verif.Whole.Spec
import Verif.Whole.Geom
import Verif.Whole.Step
import Verif.Whole.Kern
import Verif.Whole.Props
import Verif.Whole.Main
import Verif.Whole.Example
import Verif.Whole.ConsSpec
import Verif.Whole.ConsGeom
import Verif.Whole.ConsSync
import Verif.Whole.ConsMain
import Verif.Whole.ConsRun
import Verif.Whole.ConsProps
import Verif.Whole.ConsGrid
import Verif.Whole.ConsFace
import Verif.Whole.ConsUnify
import Verif.Whole.Real
import Verif.Whole.RealProps
import Verif.Whole.RealHybrid
import Verif.Time.Forget
import Verif.Whole.Resume
import Verif.Whole.ResumeProps
import Verif.Whole.ResumeMain
import Verif.Whole.ResumeGas
import Verif.Whole.ResumeExample
import Verif.Par.Threads
import Verif.Par.Table
import Verif.Par.Kernels
import Verif.Par.Reduce
import Verif.Trans.Fit
import Verif.IO.XmfProps
import Verif.Mem.Model
import Verif.Mem.Safe
import Verif.Mem.Proofs
import Verif.Mem.Setup
import Verif.Mem.Props
import Verif.IO.Crash
import Verif.IO.CrashProps
import Verif.IO.CrashMain
import Verif.IO.CrashBad
import Verif.Time.Equivariance
import Verif.Halo.Natural
import Verif.Whole.Frame
import Verif.Whole.Rotate
import Verif.Whole.RotateFlux
import Verif.Whole.RotateDiff
import Verif.Whole.RotateGeom
import Verif.Whole.RotateCell
import Verif.Whole.RotateCase
import Verif.Whole.RotateAxial
import Verif.Whole.RotateMain
import Verif.Safe.Model
import Verif.Safe.Proofs
import Verif.Safe.Faces
import Verif.Safe.Props
import Verif.Safe.Table
import Verif.Safe.Source
import Verif.Safe.Covers
import Verif.Safe.Covers1
import Verif.Safe.Covers2
import Verif.Safe.Covers3
import Verif.Safe.Covers4
import Verif.Safe.SourceFaces
import Verif.Safe.SourceProps
import Verif.Util.Load
import Verif.Text.Flux
import Verif.Text.FluxProps
import Verif.Text.FluxWide
import Verif.Text.Diff
import Verif.Text.DiffProps
import Verif.Text.Cell
import Verif.Text.CellProps
import Verif.Text.ThermoProps
import Verif.Text.FluxMuscl
import Verif.Text.FluxMusclHllc
import Verif.Text.Stage
import Verif.Text.StageProps
