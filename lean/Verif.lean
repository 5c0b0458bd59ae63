import Verif.Py
import Verif.Xml
import Verif.Enums
import Verif.Times
import Verif.Ext
import Verif.Geoif
import Verif.Value
import Verif.Info
import Verif.Helpers
import Verif.Base
import Verif.Classes
import Verif.ExtInst
import Verif.Lemmas.Py
import Verif.Lemmas.Times
import Verif.Lemmas.Iso
import Verif.Lemmas.Construct
import Verif.Lemmas.Coords
import Verif.Lemmas.Read
import Verif.Lemmas.Val
import Verif.Spec.Lists
import Verif.Spec.Scalars
import Verif.Spec.Times
import Verif.Spec.Iso
import Verif.Spec.Integers
import Verif.Spec.Coords
import Verif.Props.Scalars
import Verif.Props.Integers
import Verif.Props.Times
import Verif.Props.Coords
import Verif.Props.Modes
import Verif.Spec.Typing
import Verif.Spec.Errors
import Verif.Lemmas.Ns
import Verif.Lemmas.Typing
import Verif.Lemmas.ReadTyped
import Verif.Lemmas.Fastkml
import Verif.Lemmas.Write
import Verif.Props.Errors
import Verif.Spec.Reading
import Verif.Spec.Names
import Verif.Lemmas.Reading
import Verif.Lemmas.Names
import Verif.Props.Reading
import Verif.Render
import Verif.Spec.Writing
import Verif.Lemmas.Written
import Verif.Lemmas.Precision
import Verif.Props.Registry
import Verif.Props.Writing
import Verif.Spec.Cycle
import Verif.Lemmas.Cycle
import Verif.Lemmas.CycleRead
import Verif.Spec.Canonical
import Verif.Lemmas.Canonical
import Verif.Lemmas.Stable
import Verif.Decide
import Verif.Props.Cycle
import Verif.Spec.Decimal
import Verif.Exact
import Verif.ExactInst
import Verif.Lemmas.Exact
import Verif.Spec.Rounding
import Verif.Lemmas.Rounding
import Verif.Props.Precision
import Verif.Make
import Verif.Spec.Geometry
import Verif.Lemmas.Slots
import Verif.Lemmas.Make
import Verif.Props.Geometry
import Verif.Spec.Tracks
import Verif.Props.Tracks
import Verif.DictOrder
import Verif.Find
import Verif.Spec.Find
import Verif.Lemmas.Find
import Verif.Lemmas.Inside
import Verif.Props.Find
import Verif.Eq
import Verif.Spec.Eq
import Verif.Lemmas.Eq
import Verif.Lemmas.EqLaws
import Verif.Props.Eq
import Verif.Heap
import Verif.Files
import Verif.Spec.Namespaces
import Verif.Props.Append
import Verif.Props.Namespaces
import Verif.Props.Files
import Verif.Access
import Verif.Spec.Empty
import Verif.Props.Empty
import Verif.Props.Access
import Verif.XsdTypes
import Verif.XsdData
import Verif.Spec.Xsd
import Verif.Spec.Valid
import Verif.Spec.Defaults
import Verif.Lemmas.Xsd
import Verif.Spec.Simple
import Verif.Lemmas.Simple
import Verif.Lemmas.Valid
import Verif.Props.Valid
import Verif.Props.Defaults
import Verif.ReprTable
import Verif.Repr
import Verif.Spec.Repr
import Verif.Lemmas.ReprGeo
import Verif.Lemmas.Alike
import Verif.Lemmas.Rebuilt
import Verif.Lemmas.RebuiltRegular
import Verif.Lemmas.ReprEval
import Verif.Lemmas.ReprExtra
import Verif.Lemmas.ReprRead
import Verif.Props.Repr
import Verif.Spec.Rename
import Verif.Lemmas.Rename
import Verif.Lemmas.RenameWrite
import Verif.Props.Rename
import Verif.Props.Reopen
import Verif.Props.Content
import Verif.Props.Extend
import Verif.Props.Cascade
import Verif.Spec.Accepted
import Verif.Lemmas.Accepted
import Verif.Props.Accepted
import Verif.Props.Simple
import Verif.Store
import Verif.Spec.Store
import Verif.Lemmas.Store
import Verif.Lemmas.StoreStep
import Verif.Lemmas.StoreLoad
import Verif.Lemmas.StoreMake
import Verif.Lemmas.StoreLocal
import Verif.Props.Store
import Verif.Spec.Url
import Verif.Spec.XmlText
import Verif.Lemmas.XmlText
import Verif.XmlInst
import Verif.Props.XmlText
import Verif.Spec.Verbosity
import Verif.Lemmas.Verbosity
import Verif.Props.Verbosity
import Verif.Config
import Verif.Std
import Verif.Spec.Config
import Verif.Lemmas.Std
import Verif.Lemmas.StdNames
import Verif.Props.Config
import Verif.Nodes
import Verif.Spec.Nodes
import Verif.Props.Nodes
import Verif.Spec.Said
import Verif.Props.Said
import Verif.Props.Lossless
import Verif.Spec.Resaved
import Verif.Props.Ranges
import Verif.Props.Resaved
import Verif.Lxml
import Verif.LxmlFiles
import Verif.Spec.Lxml
import Verif.Props.Lxml
import Verif.Props.LxmlText
import Verif.Spec.Moments
import Verif.Props.Moments
import Verif.Spec.Ordinary
import Verif.Props.Ordinary
import Verif.Spec.Labels
import Verif.Props.Labels
import Verif.Props.Fewer
import Verif.Url
import Verif.Props.Url
import Verif.Crash
import Verif.Lemmas.Prefix
import Verif.Props.Crash
import Verif.Cache
import Verif.Spec.Recent
import Verif.Props.Cache
import Verif.Log
import Verif.Spec.Log
import Verif.Props.Log
import Verif.Offsets
import Verif.Props.Offsets
