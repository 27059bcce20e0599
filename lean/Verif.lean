import Verif.Model.Basic
import Verif.Model.BTreeMap
import Verif.Model.CargoMetadata
import Verif.Model.Config
import Verif.Model.DepGraph
import Verif.Spec.Graph
import Verif.Lemmas.BTreeMap
import Verif.Lemmas.DepKinds
import Verif.Lemmas.Graph
import Verif.Model.Enums
import Verif.Model.Types
import Verif.Model.DecEq
import Verif.Model.Strings
import Verif.Model.Cli
import Verif.Model.Purl
import Verif.Model.Generator
import Verif.Spec.Bom
import Verif.Lemmas.Generator
import Verif.Lemmas.Strings
import Verif.Lemmas.Targets
import Verif.Lemmas.Total
import Verif.Props.Example
import Verif.Props.Graph
import Verif.Spec.Strings
import Verif.Lemmas.Pieces
import Verif.Lemmas.Component
import Verif.Lemmas.Fields
import Verif.Lemmas.Base64
import Verif.Props.Config
import Verif.Props.Component
import Verif.Lemmas.Files
import Verif.Props.Files
import Verif.Props.Purl
import Verif.Model.Regex
import Verif.Model.Validation
import Verif.Model.Checks
import Verif.Model.Validate
import Verif.Spec.Checks
import Verif.Spec.Refs
import Verif.Spec.Elements
import Verif.Lemmas.Regex
import Verif.Lemmas.Validation
import Verif.Lemmas.Checks
import Verif.Lemmas.ElemEqs
import Verif.Lemmas.Elements
import Verif.Lemmas.Refs
import Verif.Lemmas.BomPasses
import Verif.Spec.Builder
import Verif.Lemmas.Builder
import Verif.Props.Validation
import Verif.Props.Elements
import Verif.Spec.Vocabulary
import Verif.Spec.Formats
import Verif.Lemmas.Formats
import Verif.Props.Vocabulary
import Verif.Props.Formats
import Verif.Spec.Valid
import Verif.Lemmas.Valid
import Verif.Props.Valid
import Verif.Lemmas.Json
import Verif.Lemmas.Xml
import Verif.Model.Format.Basic
import Verif.Spec.Format.Basic
import Verif.Lemmas.Format.Basic
import Verif.Model.Format.License
import Verif.Spec.Format.License
import Verif.Lemmas.Format.License
import Verif.Model.Format.Parts
import Verif.Model.Format.Data
import Verif.Spec.Format.Parts
import Verif.Spec.Format.Data
import Verif.Lemmas.Format.Parts
import Verif.Lemmas.Format.Data
import Verif.Model.Limit
import Verif.Model.Format.Service
import Verif.Spec.Format.Service
import Verif.Lemmas.Format.Service
import Verif.Model.Format.Evidence
import Verif.Spec.Format.Evidence
import Verif.Lemmas.Format.Evidence
import Verif.Model.Format.Component
import Verif.Model.Format.Annotation
import Verif.Model.Format.Formulation
import Verif.Model.Format.Bom
import Verif.Model.Format.Vulnerability
import Verif.Model.Format.Metadata
import Verif.Spec.Format.Component
import Verif.Spec.Format.Annotation
import Verif.Spec.Format.Formulation
import Verif.Spec.Format.Bom
import Verif.Spec.Format.Tags
import Verif.Spec.Documents
import Verif.Spec.Format.Vulnerability
import Verif.Spec.Format.Metadata
import Verif.Lemmas.Format.Component
import Verif.Lemmas.Format.Annotation
import Verif.Lemmas.Format.Formulation
import Verif.Lemmas.Format.Bom
import Verif.Lemmas.Format.Document
import Verif.Lemmas.Format.At
import Verif.Lemmas.Format.Lax
import Verif.Lemmas.Format.Converts
import Verif.Lemmas.Format.Vulnerability
import Verif.Lemmas.Format.Metadata
import Verif.Props.Documents
import Verif.Props.ExampleBom
import Verif.Props.Readers
import Verif.Model.Macro
import Verif.Spec.Macro
import Verif.Lemmas.Macro
import Verif.Props.Macro
import Verif.Model.WriteFile
import Verif.Spec.Written
import Verif.Lemmas.Written
import Verif.Lemmas.Tidy
import Verif.Lemmas.WrittenXml
import Verif.Lemmas.WrittenExact
import Verif.Props.Written
import Verif.Spec.Schema.Syntax
import Verif.Spec.Schema.Patterns
import Verif.Spec.Schema.V1_3
import Verif.Spec.Schema.V1_4
import Verif.Spec.Schema.V1_5
import Verif.Spec.Schema.Jsf
import Verif.Spec.Schema.Spdx
import Verif.Spec.Schema
import Verif.Spec.Conforms
import Verif.Lemmas.Schema
import Verif.Lemmas.ElemSound
import Verif.Lemmas.Conforms.Attr
import Verif.Lemmas.Conforms.Basic
import Verif.Lemmas.Conforms.Parts
import Verif.Lemmas.Conforms.Licenses
import Verif.Lemmas.Conforms.Small
import Verif.Lemmas.Conforms.Data
import Verif.Lemmas.Conforms.Component
import Verif.Lemmas.Conforms.Service
import Verif.Lemmas.Conforms.Metadata
import Verif.Lemmas.Conforms.Vulnerability
import Verif.Lemmas.Conforms.Formulation
import Verif.Lemmas.Conforms.Bom
import Verif.Spec.SchemaEnv
import Verif.Lemmas.Conforms.Generated
import Verif.Lemmas.SchemaEval
import Verif.Lemmas.SoundEval
import Verif.Props.Schema
import Verif.Spec.Unique
import Verif.Lemmas.Unique
import Verif.Props.Members
import Verif.Spec.Settled
import Verif.Lemmas.Settled
import Verif.Props.Reread
import Verif.Spec.XmlKept
import Verif.Lemmas.Clean
import Verif.Lemmas.Gets.Parts
import Verif.Lemmas.Gets.Data
import Verif.Lemmas.Gets.Formulation
import Verif.Lemmas.Gets.Component
import Verif.Lemmas.Gets.Bom
import Verif.Lemmas.Finds
import Verif.Lemmas.Brings
import Verif.Spec.Dated
import Verif.Lemmas.Dated
import Verif.Props.RereadXml
import Verif.Model.Main
import Verif.Spec.Run
import Verif.Lemmas.Main
import Verif.Props.Run
import Verif.Model.Args
import Verif.Spec.Args
import Verif.Lemmas.Args
import Verif.Props.Args
import Verif.Props.Complete
import Verif.Spec.Strict
import Verif.Lemmas.Keeps.V1_3
import Verif.Props.Lossless
import Verif.Model.File.Types
import Verif.Model.File.Convert
import Verif.Model.File.Json
import Verif.Spec.Named
import Verif.Lemmas.File.Convert
import Verif.Lemmas.File.Converts
import Verif.Lemmas.File.Json
import Verif.Lemmas.File.Read
import Verif.Props.Convert
import Verif.Lemmas.JsonOnly
import Verif.Lemmas.Only.Parts
import Verif.Lemmas.Only.Service
import Verif.Lemmas.Only.Component
import Verif.Lemmas.Only.Document
import Verif.Props.Exact
import Verif.Lemmas.XmlOnly
import Verif.Lemmas.XOnly.Basic
import Verif.Lemmas.XOnly.License
import Verif.Lemmas.XOnly.Parts
import Verif.Lemmas.XOnly.Data
import Verif.Lemmas.XOnly.Service
import Verif.Lemmas.XOnly.Evidence
import Verif.Lemmas.XOnly.Component
import Verif.Lemmas.XOnly.Metadata
import Verif.Lemmas.XOnly.Vulnerability
import Verif.Lemmas.XOnly.Formulation
import Verif.Lemmas.XOnly.Bom
import Verif.Props.ExactXml
import Verif.Spec.Places
import Verif.Lemmas.Places
import Verif.Lemmas.PlacesOf
import Verif.Lemmas.PlacesAll
import Verif.Props.Places
import Verif.Spec.Reordered
import Verif.Lemmas.Reordered
import Verif.Lemmas.OrderFree
import Verif.Lemmas.Value
import Verif.Lemmas.Ranked
import Verif.Lemmas.ValueRead
import Verif.Lemmas.ValueSchema
import Verif.Lemmas.Overridden
import Verif.Props.Order
import Verif.Spec.Unknown
import Verif.Lemmas.Unknown
import Verif.Lemmas.Tolerant
import Verif.Lemmas.UnknownValue
import Verif.Props.Unknown
import Verif.Spec.XmlElements
import Verif.Lemmas.Arranged
import Verif.Lemmas.Arranged.V1_3
import Verif.Lemmas.Arranged.V1_4
import Verif.Lemmas.Arranged.V1_5
import Verif.Lemmas.Arranged.Format
import Verif.Lemmas.Arranged.Generated
import Verif.Props.Arrangement
import Verif.Model.Constructors
import Verif.Props.Constructors
import Verif.Spec.XmlSchema
import Verif.Lemmas.Accepts.Basic
import Verif.Lemmas.Accepts.Parts
import Verif.Lemmas.Accepts.Special
import Verif.Lemmas.Accepts.Evidence
import Verif.Lemmas.Accepts.Data
import Verif.Lemmas.Accepts.Service
import Verif.Lemmas.Accepts.Component
import Verif.Lemmas.Accepts.Metadata
import Verif.Lemmas.Accepts.Vulnerability
import Verif.Lemmas.Accepts.Formulation
import Verif.Lemmas.Accepts.Bom
import Verif.Lemmas.Accepts.Check
import Verif.Props.Accepted
import Verif.Spec.XmlWritten
import Verif.Lemmas.Conforming.Basic
import Verif.Lemmas.Conforming.Tags
import Verif.Lemmas.Conforming.V1_3
import Verif.Lemmas.Conforming.V1_4
import Verif.Lemmas.Conforming.V1_5
import Verif.Lemmas.Conforming.Generated
import Verif.Lemmas.Conforming.Refute
import Verif.Props.ValidXml
import Verif.Spec.XmlAttributes
import Verif.Lemmas.Attributes.Basic
import Verif.Lemmas.Attributes.Readers
import Verif.Lemmas.Attributes.Bom
import Verif.Spec.XmlExchange
import Verif.Lemmas.Exchange.Basic
import Verif.Lemmas.Exchange.Parts
import Verif.Lemmas.Exchange.Data
import Verif.Lemmas.Exchange.Component
import Verif.Lemmas.Exchange.Bom
import Verif.Lemmas.Exchange.Sorted
import Verif.Props.XmlOrder
import Verif.Props.XmlAttributes
import Verif.Spec.XmlForeign
import Verif.Lemmas.Foreign.Basic
import Verif.Lemmas.Foreign.Parts
import Verif.Lemmas.Foreign.Data
import Verif.Lemmas.Foreign.Component
import Verif.Lemmas.Foreign.Bom
import Verif.Lemmas.Foreign.Tame
import Verif.Props.Foreign
import Verif.Spec.Convert
import Verif.Lemmas.Convert
import Verif.Props.BothFormats
import Verif.Spec.Tree
import Verif.Lemmas.Tree
import Verif.Spec.TreeXml
import Verif.Lemmas.TreeXml
import Verif.Props.Fields
import Verif.Props.Dated
import Verif.Spec.Versions
import Verif.Props.Versions
import Verif.Lemmas.Stays
import Verif.Spec.Stays
import Verif.Props.Stays
import Verif.Lemmas.Format.Between
import Verif.Props.Between
import Verif.Spec.Bounded
import Verif.Lemmas.Bounded.Basic
import Verif.Lemmas.Bounded.Types
import Verif.Props.Bounded
import Verif.Spec.Ends
import Verif.Spec.Older
import Verif.Lemmas.Ends.Basic
import Verif.Lemmas.Ends.Types
import Verif.Lemmas.Ends.Limit
import Verif.Lemmas.Ends.LimitJson
import Verif.Lemmas.Older
import Verif.Props.Ends
import Verif.Props.Older
import Verif.Lemmas.Newer
import Verif.Props.Newer
import Verif.Props.Injective
import Verif.Spec.Presentation
import Verif.Lemmas.Presentation
import Verif.Props.Presentation
import Verif.Spec.Options
import Verif.Lemmas.Options
import Verif.Props.Options
import Verif.Spec.Locality
import Verif.Lemmas.Locality
import Verif.Props.Locality
import Verif.Props.Growth
import Verif.Props.Uniform
import Verif.Props.Binaries
import Verif.Props.Paths
import Verif.Props.Nested
import Verif.Props.Platform
import Verif.Props.Claims
