import Verif.Lemmas.Alias
import Verif.Lemmas.Assemble
import Verif.Lemmas.Backward
import Verif.Lemmas.Blueprint
import Verif.Lemmas.CompiledDKQ
import Verif.Lemmas.CompiledGQ12
import Verif.Lemmas.CompiledTMQb
import Verif.Lemmas.CompiledTMQs
import Verif.Lemmas.Converge
import Verif.Lemmas.Coo
import Verif.Lemmas.Demo
import Verif.Lemmas.Drop
import Verif.Lemmas.Dxf
import Verif.Lemmas.Dynamic
import Verif.Lemmas.Edit
import Verif.Lemmas.Element
import Verif.Lemmas.Exact
import Verif.Lemmas.ExactField
import Verif.Lemmas.Fourier
import Verif.Lemmas.Frame
import Verif.Lemmas.FrameDemo
import Verif.Lemmas.FrameLaws
import Verif.Lemmas.FrameMap
import Verif.Lemmas.Fresh
import Verif.Lemmas.General
import Verif.Lemmas.GeneralCreate
import Verif.Lemmas.GeneralIds
import Verif.Lemmas.Geom
import Verif.Lemmas.GhViewer
import Verif.Lemmas.Grasshopper
import Verif.Lemmas.GrasshopperScript
import Verif.Lemmas.History
import Verif.Lemmas.Inexact
import Verif.Lemmas.InexactMixed
import Verif.Lemmas.Inv
import Verif.Lemmas.Line
import Verif.Lemmas.LoadVec
import Verif.Lemmas.Mirror
import Verif.Lemmas.Modes
import Verif.Lemmas.Names
import Verif.Lemmas.Nearby
import Verif.Lemmas.NearbyRun
import Verif.Lemmas.NearbyStep
import Verif.Lemmas.Observe
import Verif.Lemmas.Office
import Verif.Lemmas.Overlap
import Verif.Lemmas.Pencil
import Verif.Lemmas.Py
import Verif.Lemmas.Response
import Verif.Lemmas.Results
import Verif.Lemmas.SecondOrder
import Verif.Lemmas.Section
import Verif.Lemmas.Seismic
import Verif.Lemmas.ShellDemo
import Verif.Lemmas.ShellElm
import Verif.Lemmas.ShellFields
import Verif.Lemmas.ShellK
import Verif.Lemmas.ShellStrain
import Verif.Lemmas.Shift
import Verif.Lemmas.Solve
import Verif.Lemmas.Solvers
import Verif.Lemmas.Step
import Verif.Lemmas.Structure
import Verif.Lemmas.ThickPlate
import Verif.Lemmas.TwoSupports
import Verif.Lemmas.Viewer
import Verif.Lemmas.World
import Verif.Model.Alias
import Verif.Model.Api
import Verif.Model.Artificial
import Verif.Model.Assembly
import Verif.Model.Beam
import Verif.Model.CaseObject
import Verif.Model.Cases
import Verif.Model.CompiledDKQ
import Verif.Model.CompiledGQ12
import Verif.Model.CompiledQuad
import Verif.Model.CompiledTMQb
import Verif.Model.CompiledTMQs
import Verif.Model.CompiledThick
import Verif.Model.CompiledTria
import Verif.Model.Csys
import Verif.Model.Dxf
import Verif.Model.Dynamic
import Verif.Model.ElementObject
import Verif.Model.Examples
import Verif.Model.FeModel
import Verif.Model.Find
import Verif.Model.Fourier
import Verif.Model.General
import Verif.Model.GhViewer
import Verif.Model.Grasshopper
import Verif.Model.Interp
import Verif.Model.Load
import Verif.Model.Logger
import Verif.Model.Meta
import Verif.Model.Office
import Verif.Model.Overlap
import Verif.Model.Post
import Verif.Model.Py
import Verif.Model.Response
import Verif.Model.Results
import Verif.Model.S2k
import Verif.Model.Section
import Verif.Model.Seismic
import Verif.Model.Selection
import Verif.Model.Shell
import Verif.Model.ShellK
import Verif.Model.SingleElement
import Verif.Model.Solver
import Verif.Model.Solvers
import Verif.Model.ThickPlate
import Verif.Model.Tolerance
import Verif.Model.Trouble
import Verif.Model.Viewer
import Verif.Props.Alias
import Verif.Props.AliasShell
import Verif.Props.ApiFacts
import Verif.Props.Artificial
import Verif.Props.ArtificialPower
import Verif.Props.Backward
import Verif.Props.Blueprint
import Verif.Props.Cantilever
import Verif.Props.CaseHistory
import Verif.Props.CaseObject
import Verif.Props.CaseRestraint
import Verif.Props.Cases
import Verif.Props.CompiledQuad
import Verif.Props.CompiledThick
import Verif.Props.CompiledTria
import Verif.Props.Consistent
import Verif.Props.Csys
import Verif.Props.Damping
import Verif.Props.Deform
import Verif.Props.Determinate
import Verif.Props.DeterminateDemo
import Verif.Props.Divergence
import Verif.Props.Dxf
import Verif.Props.Dynamic
import Verif.Props.Element
import Verif.Props.ElementObject
import Verif.Props.Exact
import Verif.Props.ExactField
import Verif.Props.Examples
import Verif.Props.Find
import Verif.Props.Fourier
import Verif.Props.Frame
import Verif.Props.FrameLaws
import Verif.Props.FrameLawsDemo
import Verif.Props.FrameMap
import Verif.Props.FrameMapDemo
import Verif.Props.General
import Verif.Props.GeneralData
import Verif.Props.GeneralFrameLoads
import Verif.Props.GeneralFrames
import Verif.Props.GeneralLoads
import Verif.Props.GeneralMerge
import Verif.Props.GeneralNames
import Verif.Props.GeneralResults
import Verif.Props.GeneralSettings
import Verif.Props.GeneralStock
import Verif.Props.GeneralUnits
import Verif.Props.GhViewer
import Verif.Props.Grasshopper
import Verif.Props.GrasshopperScript
import Verif.Props.GrasshopperUnits
import Verif.Props.Histories
import Verif.Props.Inexact
import Verif.Props.InexactMixed
import Verif.Props.Interp
import Verif.Props.Line
import Verif.Props.Loads
import Verif.Props.Logger
import Verif.Props.Mass
import Verif.Props.Merging
import Verif.Props.Meta
import Verif.Props.Mixed
import Verif.Props.MixedDemo
import Verif.Props.MixedMoment
import Verif.Props.Modal
import Verif.Props.Modes
import Verif.Props.ModesDemo
import Verif.Props.Names
import Verif.Props.NamesDemo
import Verif.Props.Nearby
import Verif.Props.NewmarkEnergy
import Verif.Props.Office
import Verif.Props.Overlap
import Verif.Props.Reaction
import Verif.Props.Reduce
import Verif.Props.Registry
import Verif.Props.Response
import Verif.Props.ResponseCase
import Verif.Props.Resultants
import Verif.Props.Results
import Verif.Props.S2k
import Verif.Props.SecondOrder
import Verif.Props.SecondOrderDemo
import Verif.Props.Section
import Verif.Props.Seismic
import Verif.Props.Selection
import Verif.Props.Shell
import Verif.Props.ShellK
import Verif.Props.ShellNames
import Verif.Props.ShellSolve
import Verif.Props.SingleElement
import Verif.Props.Solve
import Verif.Props.Solvers
import Verif.Props.Spectrum
import Verif.Props.SplitDemo
import Verif.Props.Statics
import Verif.Props.StaticsDemo
import Verif.Props.Structure
import Verif.Props.Tables
import Verif.Props.ThickLimit
import Verif.Props.ThickModes
import Verif.Props.ThickPlate
import Verif.Props.ThickShell
import Verif.Props.TimeHistory
import Verif.Props.Tolerance
import Verif.Props.Trouble
import Verif.Props.TwoSupports
import Verif.Props.Viewer
import Verif.Props.ViewerShells
import Verif.Props.Wave
import Verif.Spec.Alias
import Verif.Spec.Artificial
import Verif.Spec.Backward
import Verif.Spec.Beam
import Verif.Spec.Blueprint
import Verif.Spec.CaseObject
import Verif.Spec.Cases
import Verif.Spec.Determinate
import Verif.Spec.Dynamic
import Verif.Spec.Exact
import Verif.Spec.Examples
import Verif.Spec.Fourier
import Verif.Spec.Frame
import Verif.Spec.FrameLaws
import Verif.Spec.FrameMap
import Verif.Spec.General
import Verif.Spec.Geometry
import Verif.Spec.GhViewer
import Verif.Spec.Grasshopper
import Verif.Spec.Histories
import Verif.Spec.History
import Verif.Spec.Inexact
import Verif.Spec.Interp
import Verif.Spec.Listing
import Verif.Spec.Mass
import Verif.Spec.Merging
import Verif.Spec.Mixed
import Verif.Spec.Modes
import Verif.Spec.Names
import Verif.Spec.Nearby
import Verif.Spec.Observe
import Verif.Spec.Office
import Verif.Spec.Overlap
import Verif.Spec.Reduce
import Verif.Spec.Registry
import Verif.Spec.Response
import Verif.Spec.Resultants
import Verif.Spec.Results
import Verif.Spec.S2k
import Verif.Spec.Section
import Verif.Spec.Seismic
import Verif.Spec.Settings
import Verif.Spec.Shell
import Verif.Spec.ShellNames
import Verif.Spec.SingleElement
import Verif.Spec.Solvers
import Verif.Spec.Statics
import Verif.Spec.Structure
import Verif.Spec.ThickPlate
import Verif.Spec.Tolerance
import Verif.Spec.Trouble
import Verif.Spec.Viewer
