import Verif.Lemmas.Calc
import Verif.Lemmas.Combine
import Verif.Lemmas.Context
import Verif.Lemmas.ContextStore
import Verif.Lemmas.DateCheck
import Verif.Lemmas.DateEval
import Verif.Lemmas.DateItems
import Verif.Lemmas.DateSegs
import Verif.Lemmas.DateTables
import Verif.Lemmas.DateTables.Base
import Verif.Lemmas.DateTables.T00
import Verif.Lemmas.DateTables.T01
import Verif.Lemmas.DateTables.T02
import Verif.Lemmas.DateTables.T03
import Verif.Lemmas.DateTables.T04
import Verif.Lemmas.DateTables.T05
import Verif.Lemmas.DateTables.T06
import Verif.Lemmas.DateTables.T07
import Verif.Lemmas.DateTables.T08
import Verif.Lemmas.DateTables.T09
import Verif.Lemmas.DateTables.T10
import Verif.Lemmas.DateTables.T11
import Verif.Lemmas.DateTables.T12
import Verif.Lemmas.DateTables.T13
import Verif.Lemmas.DateTables.T14
import Verif.Lemmas.DateTables.T15
import Verif.Lemmas.DateText
import Verif.Lemmas.FactValue
import Verif.Lemmas.Filing
import Verif.Lemmas.Footnotes
import Verif.Lemmas.History
import Verif.Lemmas.InlineErrors
import Verif.Lemmas.Link
import Verif.Lemmas.Linkbase
import Verif.Lemmas.Loader
import Verif.Lemmas.Names
import Verif.Lemmas.Network
import Verif.Lemmas.Networks
import Verif.Lemmas.Numeric
import Verif.Lemmas.Output
import Verif.Lemmas.Preserve
import Verif.Lemmas.Py
import Verif.Lemmas.Regex
import Verif.Lemmas.Repos
import Verif.Lemmas.XmlContext
import Verif.Model.Calc
import Verif.Model.CalcNetwork
import Verif.Model.Combine
import Verif.Model.Components
import Verif.Model.ContextStore
import Verif.Model.Dates
import Verif.Model.Edgar
import Verif.Model.Elements
import Verif.Model.Equality
import Verif.Model.ErrorTable
import Verif.Model.Errors
import Verif.Model.FactValue
import Verif.Model.Filing
import Verif.Model.Footnotes
import Verif.Model.FormatTables
import Verif.Model.InlineContent
import Verif.Model.Languages
import Verif.Model.Link
import Verif.Model.Linkbase
import Verif.Model.Loader
import Verif.Model.Names
import Verif.Model.Network
import Verif.Model.NetworkDict
import Verif.Model.Networks
import Verif.Model.NsNormalize
import Verif.Model.Numeric
import Verif.Model.Open
import Verif.Model.OpenInline
import Verif.Model.OpenPath
import Verif.Model.Output
import Verif.Model.Printing
import Verif.Model.Regex
import Verif.Model.Repos
import Verif.Model.Resource
import Verif.Model.Rows
import Verif.Model.Schema
import Verif.Model.Tables
import Verif.Model.TranslationTable
import Verif.Model.Uri
import Verif.Model.XhtmlFacts
import Verif.Model.Xml
import Verif.Model.XmlContext
import Verif.Model.XmlFacts
import Verif.Props.Arcs
import Verif.Props.ArcsExample
import Verif.Props.Calc
import Verif.Props.CalcNetwork
import Verif.Props.CalcNetworkExample
import Verif.Props.CheckFiling
import Verif.Props.Combine
import Verif.Props.Components
import Verif.Props.Context
import Verif.Props.ContextStore
import Verif.Props.ContinuationReports
import Verif.Props.Dates
import Verif.Props.Edgar
import Verif.Props.Equality
import Verif.Props.Eras
import Verif.Props.Errors
import Verif.Props.FactValue
import Verif.Props.Filing
import Verif.Props.Footnotes
import Verif.Props.InlineContent
import Verif.Props.InlineInstance
import Verif.Props.Instance
import Verif.Props.Languages
import Verif.Props.Link
import Verif.Props.LinkKinds
import Verif.Props.LinkSuccess
import Verif.Props.LinkValid
import Verif.Props.LinkValidExample
import Verif.Props.Linkbase
import Verif.Props.LinkbaseExample
import Verif.Props.Lists
import Verif.Props.Loader
import Verif.Props.Names
import Verif.Props.Network
import Verif.Props.NetworkDict
import Verif.Props.Networks
import Verif.Props.NonFraction
import Verif.Props.NsNormalize
import Verif.Props.Numeric
import Verif.Props.Open
import Verif.Props.OpenExample
import Verif.Props.OpenInline
import Verif.Props.OpenInlineExample
import Verif.Props.OpenPath
import Verif.Props.OpenPathExample
import Verif.Props.Opening
import Verif.Props.Output
import Verif.Props.Physical
import Verif.Props.Printing
import Verif.Props.References
import Verif.Props.Relations
import Verif.Props.Repos
import Verif.Props.Resource
import Verif.Props.RoleRefs
import Verif.Props.Rows
import Verif.Props.Schema
import Verif.Props.TableNodes
import Verif.Props.TableStructure
import Verif.Props.Tables
import Verif.Props.Uri
import Verif.Props.XhtmlFacts
import Verif.Props.XmlContext
import Verif.Props.XmlFacts
import Verif.Props.XmlSource
import Verif.Py
import Verif.Spec.Arcs
import Verif.Spec.Calc
import Verif.Spec.CalcNetwork
import Verif.Spec.Combine
import Verif.Spec.Common
import Verif.Spec.Components
import Verif.Spec.ContextStore
import Verif.Spec.Dates
import Verif.Spec.Edgar
import Verif.Spec.Eras
import Verif.Spec.Errors
import Verif.Spec.FactValue
import Verif.Spec.Filing
import Verif.Spec.Footnotes
import Verif.Spec.InlineContent
import Verif.Spec.InlineInstance
import Verif.Spec.Instance
import Verif.Spec.Languages
import Verif.Spec.Link
import Verif.Spec.LinkValid
import Verif.Spec.Linkbase
import Verif.Spec.Loader
import Verif.Spec.Names
import Verif.Spec.Network
import Verif.Spec.NetworkDict
import Verif.Spec.Networks
import Verif.Spec.NsNormalize
import Verif.Spec.Numeric
import Verif.Spec.Open
import Verif.Spec.OpenInline
import Verif.Spec.OpenPath
import Verif.Spec.Output
import Verif.Spec.Printing
import Verif.Spec.Regex
import Verif.Spec.Repos
import Verif.Spec.RoleRefs
import Verif.Spec.Rows
import Verif.Spec.Schema
import Verif.Spec.Tables
import Verif.Spec.Uri
import Verif.Spec.XhtmlFacts
import Verif.Spec.XmlContext
import Verif.Spec.XmlFacts
import Verif.Spec.XmlSource
import Verif.Model.FileCache
import Verif.Spec.FileCache
import Verif.Props.FileCache
import Verif.Props.Reopen
import Verif.Spec.Aggregation
import Verif.Props.Aggregation
import Verif.Props.AggregationExample
import Verif.Model.FactRow
import Verif.Spec.FactRow
import Verif.Spec.FactTable
import Verif.Props.FactRow
import Verif.Props.FactTable
import Verif.Props.FactTableExample
import Verif.Model.Double
import Verif.Model.DoubleNetwork
import Verif.Spec.Double
import Verif.Lemmas.Double
import Verif.Lemmas.FloatText
import Verif.Lemmas.DoubleCalc
import Verif.Lemmas.DoubleError
import Verif.Props.Double
import Verif.Model.Sharing
import Verif.Spec.Sharing
import Verif.Props.Sharing
import Verif.Spec.Rearranged
import Verif.Props.Rearranged
import Verif.Props.RearrangedExample
import Verif.Props.RearrangedPath
import Verif.Spec.WrittenFiling
import Verif.Props.WrittenFiling
import Verif.Props.WrittenFilingExample
import Verif.Model.InlineChecks
import Verif.Spec.InlineChecks
import Verif.Props.InlineChecks
import Verif.Props.InlineChecksExample
import Verif.Model.Filters
import Verif.Spec.Filters
import Verif.Props.Filters
import Verif.Model.FilingTables
import Verif.Spec.FilingTables
import Verif.Props.FilingTables
import Verif.Props.FilingTablesExample
import Verif.Model.PrettyPrint
import Verif.Spec.PrettyPrint
import Verif.Props.PrettyPrint
import Verif.Model.FilingQueries
import Verif.Spec.FilingQueries
import Verif.Props.FilingQueries
import Verif.Props.FilingQueriesExample
import Verif.Model.InlineQueries
import Verif.Spec.InlineQueries
import Verif.Props.InlineQueries
import Verif.Props.InlineQueriesExample
import Verif.Model.FactParts
import Verif.Spec.FactParts
import Verif.Props.FactParts
import Verif.Props.FactPartsExample
import Verif.Spec.LanguageTables
import Verif.Props.LanguageTables
import Verif.Props.LanguageTablesExample
import Verif.Spec.LanguageFacts
import Verif.Props.LanguageFacts
import Verif.Props.LanguageFactsExample
