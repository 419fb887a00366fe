import Verif.Py
import Verif.PyLemmas
import Verif.Value
import Verif.Regex
import Verif.RegexLemmas
import Verif.Simple
import Verif.SimpleLemmas
import Verif.Spec.Integers
import Verif.Props.Integers
import Verif.Spec.Strings
import Verif.Props.Strings
import Verif.Spec.Dates
import Verif.Props.Dates
import Verif.Spec.DateTimes
import Verif.Props.DateTimes
import Verif.Spec.Numbers
import Verif.Props.Numbers
import Verif.Xml
import Verif.Complex
import Verif.ComplexLemmas
import Verif.Spec.Values
import Verif.Sim
import Verif.Spec.Documents
import Verif.Examples
import Verif.Props.Parse
import Verif.Props.ParseTypes
import Verif.Spec.Render
import Verif.Props.Render
import Verif.Spec.RoundTrip
import Verif.Props.RoundTrip
import Verif.Heap
import Verif.Spec.Heap
import Verif.HeapLemmas
import Verif.Props.Heap
import Verif.Compare
import Verif.Props.Compare
import Verif.Meta
import Verif.Props.Meta
import Verif.Http
import Verif.Soap
import Verif.Dispatch
import Verif.Spec.Dispatch
import Verif.DispatchLemmas
import Verif.QueryLemmas
import Verif.SoapLemmas
import Verif.HandleLemmas
import Verif.ServiceExample
import Verif.Props.Answer
import Verif.Props.Dispatch
import Verif.Props.Served
import Verif.Client
import Verif.Props.Action
import Verif.Props.Calls
import Verif.Props.Encoding
import Verif.Props.Schemas
import Verif.Props.Adapters
import Verif.Props.Names
import Verif.Props.Wsa
import Verif.Paths
import Verif.Spec.Paths
import Verif.Props.Paths
import Verif.Imports
import Verif.Spec.Imports
import Verif.Props.Imports
import Verif.Order
import Verif.Spec.Order
import Verif.Props.Order
import Verif.Includes
import Verif.Spec.Includes
import Verif.Props.Includes
import Verif.Xsdspec
import Verif.Generate
import Verif.Spec.Generate
import Verif.GenerateLemmas
import Verif.GenerateBuild
import Verif.GenerateRender
import Verif.Props.Generate
import Verif.Wsdl
import Verif.Spec.Wsdl
import Verif.WsdlLemmas
import Verif.SpecSurvives
import Verif.WsdlLookup
import Verif.Props.Wsdl
import Verif.Code
import Verif.Describe
import Verif.Run
import Verif.Spec.Code
import Verif.DescribeLemmas
import Verif.CodeLemmas
import Verif.RunTexts
import Verif.RunLemmas
import Verif.RunSchema
import Verif.Props.RoundTripCode
import Verif.RunTypes
import Verif.Spec.CodeTypes
import Verif.RunTypesLemmas
import Verif.RunInPlace
import Verif.Props.CodeTypes
import Verif.RunTable
import Verif.RunFields
import Verif.RunTableLemmas
import Verif.RunNew
import Verif.Spec.CodeFields
import Verif.RunPlain
import Verif.Props.CodeFields
import Verif.Spec.Conforms
import Verif.Props.CodeValid
import Verif.Spec.Kept
import Verif.Props.CodeReads
import Verif.Props.CodeExtension
import Verif.Url
import Verif.Spec.Endpoint
import Verif.Props.Endpoint
import Verif.ServiceCode
import Verif.ServiceRun
import Verif.Spec.Service
import Verif.ServiceLemmas
import Verif.ServiceExec
import Verif.Props.Service
import Verif.Spec.Described
import Verif.DescribedLemmas
import Verif.DescribedExec
import Verif.Props.Described
import Verif.Serve
import Verif.Spec.Serve
import Verif.ServeLemmas
import Verif.Props.Serve
import Verif.Spec.Twin
import Verif.Props.Twin
import Verif.Spec.Robust
import Verif.RobustLemmas
import Verif.Props.Robust
import Verif.Spec.Recursion
import Verif.Props.Recursion
import Verif.Namespaces
import Verif.Spec.Namespaces
import Verif.Props.Namespaces
import Verif.HeapParse
import Verif.Spec.History
import Verif.HistoryLemmas
import Verif.Props.History
import Verif.Spec.Rely
import Verif.Props.Rely
import Verif.Threads
import Verif.Spec.Threads
import Verif.Props.Threads
import Verif.Python
import Verif.Template
import Verif.Spec.Text
import Verif.TextLemmas
import Verif.TextLines
import Verif.TextModule
import Verif.TextProof
import Verif.TextInject
import Verif.Props.Text
import Verif.WsdlTemplate
import Verif.Spec.WsdlText
import Verif.WsdlTextLemmas
import Verif.WsdlTextProof
import Verif.WsdlTextModule
import Verif.WsdlTextFacts
import Verif.Props.WsdlText
import Verif.Spec.Paired
import Verif.PairedLemmas
import Verif.PairedSurvive
import Verif.Props.Paired
import Verif.Spec.Shown
import Verif.ShownTypes
import Verif.ShownClasses
import Verif.Props.Shown
import Verif.Props.HeaderSchema
import Verif.Spec.Loaded
import Verif.LoadedLemmas
import Verif.Props.Loaded
import Verif.Spec.References
import Verif.ReferencesLemmas
import Verif.Props.References
import Verif.Spec.Published
import Verif.PublishedDocument
import Verif.PublishedLemmas
import Verif.PublishedRead
import Verif.PublishedKnown
import Verif.Props.Published
import Verif.Spec.Validated
import Verif.ValidatedLemmas
import Verif.Props.Validated
import Verif.Whole
import Verif.Props.Whole
import Verif.Spec.Headers
import Verif.Props.Headers
import Verif.Props.Unanswered
import Verif.DateObj
import Verif.Props.DateObj
import Verif.Props.Depth
import Verif.Spec.Contract
import Verif.Props.Contract
import Verif.Props.Nil
import Verif.Files
import Verif.Spec.Files
import Verif.Props.Files
import Verif.Main
import Verif.Spec.Main
import Verif.Props.Main
import Verif.Spec.Inline
import Verif.Props.Inline
import Verif.WsdlFiles
import Verif.Spec.WsdlFiles
import Verif.Props.WsdlFiles
import Verif.Spec.Numerals
import Verif.Props.Numerals
import Verif.Remote
import Verif.Spec.Remote
import Verif.Props.Remote
import Verif.Props.Assigned
import Verif.Props.Choices
import Verif.Hidden
import Verif.Props.Hidden
import Verif.Props.Groups
import Verif.Props.Restricted
import Verif.Props.FloatText
import Verif.Props.Collisions
import Verif.Props.Derived
import Verif.Props.SameName
import Verif.Props.Fetched
import Verif.Props.HeaderClasses
import Verif.Props.Overlooked
import Verif.Props.OverlookedWsdl
import Verif.Props.Unused
import Verif.Props.Mixed
import Verif.Props.Envelopes
import Verif.Props.Exchange
import Verif.Props.Reported
import Verif.Audit
