import Verif.Props.Patches
import Verif.Props.FindPatch
import Verif.Props.Cells
import Verif.Props.Caching
import Verif.Props.Search
import Verif.Props.Packer
import Verif.Props.Config
import Verif.Props.Polygons
import Verif.Props.Healpix
import Verif.Props.CoordFromVec
import Verif.Props.Sha1
import Verif.Props.Register
import Verif.Props.RegisterMaps
import Verif.Props.Rings
import Verif.Props.RingsSky
import Verif.Props.RingsV0
import Verif.Props.RingsRounding
import Verif.Props.RingsCenter
import Verif.Spec.Double
import Verif.Props.RingsArray
import Verif.Props.RingsFind
import Verif.Props.RingsRegion
import Verif.Props.RingsRegistered
import Verif.Props.RingsRegionRounding
import Verif.Props.RingsPatchList
import Verif.Props.Equat
import Verif.Props.DodecaTransform
import Verif.Lemmas.DodecaNumpy
import Verif.Lemmas.DodecaChain
import Verif.Props.Dodecahedron
import Verif.Props.Dodeca
import Verif.Model.AllMaps
import Verif.Props.AllMaps
import Verif.Model.Wcs
import Verif.Lemmas.Wcs
import Verif.Props.Wcs
import Verif.Props.Witness
import Verif.Lemmas.Cover
import Verif.Props.ExplicitCover
import Verif.Props.RingsCover
import Verif.Props.EquatCover
import Verif.Lemmas.Frame
import Verif.Props.DodecaCover
import Verif.Props.VertexCover
import Verif.Props.Uniform
import Verif.Props.RegisterConcrete
import Verif.Props.SkyPolygon
import Verif.Props.SkyPolygonOther
import Verif.Props.DodecaRegion
import Verif.Props.SkyPolygonCea
import Verif.Props.EquatRegion
import Verif.Props.Threads
import Verif.Props.ThreadsClasses
import Verif.Props.LastTract
import Verif.Props.PackerHistory
import Verif.Props.EqualMaps
import Verif.Props.RingsAll
import Verif.Props.RingsAllRounding
import Verif.Props.RingsV0Rounding
import Verif.Props.Log
import Verif.Props.Iter
import Verif.Props.DodecaDefault
import Verif.Props.Defaults
import Verif.Lemmas.RingsNear
import Verif.Lemmas.RingsWidth
import Verif.Props.RingsCoverRounding
import Verif.Props.RingsRegisteredRounding
import Verif.Props.DefaultsRounding
import Verif.Props.Int32
import Verif.Props.Int32Maps
import Verif.Props.RingsArray32
import Verif.Lemmas.RingsUnion
import Verif.Lemmas.Grown
import Verif.Props.RingsUnion
import Verif.Props.RingsHole
import Verif.Props.Configured
import Verif.Props.InnerRegion
import Verif.Props.Aliasing
import Verif.Model.RegisterConcurrent
import Verif.Props.RegisterConcurrent
import Verif.Model.NonFinite
import Verif.Lemmas.NonFinite
import Verif.Props.NonFinite
import Verif.Model.Inexact
import Verif.Props.Inexact
import Verif.Model.ThreadSearch
import Verif.Spec.ThreadSearch
import Verif.Lemmas.ThreadSearch
import Verif.Props.ThreadSearch
import Verif.Props.RegisterOrder
import Verif.Model.Text
import Verif.Props.Text
import Verif.Model.PackerThreads
import Verif.Props.PackerThreads
import Verif.Props.BadConfig
import Verif.Props.FloatIndex
import Verif.Props.HealpixDefault
import Verif.Props.DictKey
import Verif.Model.DodecaNonFinite
import Verif.Props.DodecaNonFinite
import Verif.Model.Membership
import Verif.Props.Membership
import Verif.Props.BuilderChoice
import Verif.Props.Extend
import Verif.Props.CoordOrder
import Verif.Props.Overlap
