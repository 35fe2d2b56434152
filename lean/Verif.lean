import Verif.Model.Generators
import Verif.Props.Geometry
import Verif.Props.PlanView
import Verif.Props.Links
import Verif.Props.Lane
import Verif.Props.SignalsObjects
import Verif.Props.Objects
import Verif.Props.Document
import Verif.Props.Network
import Verif.Props.LaneLinks
import Verif.Props.NetworkLinks
import Verif.Props.Generators
import Verif.Props.Junction
import Verif.Props.CreateJunction
import Verif.Props.EmitLinks
import Verif.Props.EmitLanes
import Verif.Props.EmitObjects
import Verif.Props.EmitGeometry
import Verif.Props.EmitDocument
import Verif.Props.Constructors
import Verif.Props.JunctionProgram
import Verif.Props.JunctionClosing
import Verif.Props.WriteXml
import Verif.Props.ReadFile
import Verif.Props.UserTexts
import Verif.Props.ReadNetwork
import Verif.Props.ReadJunction
import Verif.Props.Witnesses
import Verif.Rounding
import Verif.Props.Float
import Verif.Props.FloatBackward
import Verif.Props.FloatNetwork
import Verif.Props.NoLoops
import Verif.Props.Order
import Verif.Props.Shared
import Verif.Props.Touch
import Verif.Props.Tree
import Verif.Props.Program
import Verif.Props.ProgramExamples
import Verif.Props.LaneSections
import Verif.Props.LaneSectionExamples
import Verif.Props.UnlinkedExamples
import Verif.Props.DrawnJunctionExamples
import Verif.Props.JunctionChain
import Verif.Props.Furnish
import Verif.Props.FurnishExamples
import Verif.Props.Again
import Verif.Props.SharedLanes
import Verif.Props.Helpers
import Verif.Props.FloatSpiral
import Verif.Props.FloatPoly
import Verif.Props.File
import Verif.Props.FloatFileExample
import Verif.Props.Session
import Verif.Props.SessionProgramExample
import Verif.Props.SessionNumbers
import Verif.Props.SessionIds
import Verif.Props.SessionRoads
import Verif.Props.SessionAdjust
import Verif.Props.SessionAdjustExample
import Verif.Props.SessionContents
import Verif.Props.SessionGenerators
import Verif.Props.SessionGeneratorsExample
import Verif.Props.SessionLinks
import Verif.Props.SessionLinksExample
import Verif.Props.SessionJoints
import Verif.Props.SessionJointsExample
import Verif.Props.SessionDocument
import Verif.Props.SessionGeometries
import Verif.Props.SessionDocumentJoints
import Verif.Props.SessionDocumentExample
import Verif.Props.SessionTouch
import Verif.Props.SessionTouchExample
import Verif.Props.SessionTouchWidth
import Verif.Props.PolyBackward
import Verif.Props.PolyBackwardRoad
import Verif.Props.CreateJunctionErrors
import Verif.Model.SessionRoadside
import Verif.Spec.SessionRoadside
import Verif.Props.SessionRoadside
import Verif.Props.SessionRoadsideExample
import Verif.Model.SessionGeometries
import Verif.Spec.SessionFile
import Verif.Proofs.SessionFile
import Verif.Props.SessionFile
import Verif.Props.SessionFileExample
import Verif.Props.SessionRefused
import Verif.Spec.SessionApart
import Verif.Proofs.SessionParts
import Verif.Proofs.SessionPartsLanes
import Verif.Proofs.SessionApart
import Verif.Props.SessionApart
import Verif.Props.SessionApartExample
import Verif.Props.SessionApartGeometries
import Verif.Spec.WrittenTexts
import Verif.Proofs.WrittenTexts
import Verif.Props.WrittenTexts
import Verif.Conformance
import Verif.ConformanceGeometry
