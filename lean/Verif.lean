import Verif.Props.Coo
import Verif.Props.FixDof
import Verif.Props.Assembly
import Verif.Props.RefEl
import Verif.Props.Mesh
import Verif.Props.DofHandler
import Verif.Props.DataSet
import Verif.Props.Builders
import Verif.Props.RefPattern
import Verif.Props.Tiling
import Verif.Props.Marking
import Verif.Props.Refinement
import Verif.Props.Geometry
import Verif.Props.Volume
import Verif.Props.Transfer
import Verif.Props.Quad
import Verif.Props.Lagrange
import Verif.Props.Conform
import Verif.Props.UniformSpace
import Verif.Props.HierPoly
import Verif.Props.Hierarchic
import Verif.Props.HierElement
import Verif.Props.HierDual
import Verif.Props.FeTools
import Verif.Props.Integrate
import Verif.Props.LinFE
import Verif.Props.LinFELoad
import Verif.Props.LocComp
import Verif.Props.LocCompU
import Verif.Props.LocCompExact
import Verif.Props.LocCompRules
import Verif.Props.LinFEDiff
import Verif.Props.GmshPhys
import Verif.Props.GmshReader
import Verif.Props.MeshFunction
import Verif.Props.GradFE
import Verif.Props.Interpolation
import Verif.Props.Relative
import Verif.Props.Prolongation
import Verif.Props.TriaTable
import Verif.Props.Gauss
import Verif.Props.Galerkin
import Verif.Props.GalerkinSpaces
import Verif.Props.GalerkinDef
import Verif.Props.GalerkinEx
import Verif.Props.EllBvp
import Verif.Props.EllBvpEx
import Verif.Props.Vtk
import Verif.Props.HierComplete
import Verif.Props.GeoFit
import Verif.Props.Shape
import Verif.Props.DpgTools
import Verif.Props.DpgSpace
import Verif.Props.DpgProvider
import Verif.Props.DpgMethod
import Verif.Props.DpgLocComp
import Verif.Props.DpgExact
import Verif.Props.DpgFlux
import Verif.Props.DpgGauss
import Verif.Props.StrangEx
import Verif.Props.Ipdg
import Verif.Props.IpdgSystem
import Verif.Props.Annulus
import Verif.Props.Narrow
import Verif.Props.Writers
import Verif.Props.Tikz
import Verif.Props.RefUtils
import Verif.Props.Msh
import Verif.Props.Msh2
import Verif.Props.VtkFile
import Verif.Props.GmshFile
import Verif.Props.GeoCheck
import Verif.Props.IpdgFlow
import Verif.Props.MeshChecks
import Verif.Props.IpdgNorms
import Verif.Props.Timer
import Verif.Props.DpgPrimal
import Verif.Props.DpgUltraweak
