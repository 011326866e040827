import Verif.Spec.FirstReports
import Verif.Model.Blackboard
import Verif.Props.Blackboard
import Verif.Model.Structure
import Verif.Props.Structure
import Verif.Model.Text
import Verif.Props.Text
import Verif.Model.CaseInsens
import Verif.Props.CaseInsens
import Verif.Model.Helpers
import Verif.Props.Helpers
import Verif.Model.Memo
import Verif.Props.Memo
import Verif.Model.HeaderTable
import Verif.Model.Header
import Verif.Props.Header
import Verif.Model.Stream
import Verif.Model.Framing
import Verif.Spec.Framing
import Verif.Lemmas.Stream
import Verif.Lemmas.Framing
import Verif.Lemmas.Streams
import Verif.Lemmas.Loops
import Verif.Lemmas.Minus
import Verif.Spec.Wire
import Verif.Lemmas.Wire
import Verif.Props.Streams
import Verif.Lemmas.Headings
import Verif.Lemmas.Bodies
import Verif.Lemmas.Origin
import Verif.Lemmas.BodyFacts
import Verif.Lemmas.Runs
import Verif.Props.Framing
import Verif.Model.Earley
import Verif.Spec.Grammar
import Verif.Lemmas.Nullable
import Verif.Lemmas.Chart
import Verif.Lemmas.ChartEnds
import Verif.Lemmas.Complete
import Verif.Lemmas.Results
import Verif.Lemmas.Search
import Verif.Lemmas.Parser
import Verif.Props.Parser
import Verif.Model.Combinators
import Verif.Spec.Construction
import Verif.Lemmas.Heap
import Verif.Lemmas.Combinators
import Verif.Lemmas.Excluding
import Verif.Props.Combinators
import Verif.Model.Expr
import Verif.Spec.Values
import Verif.Lemmas.Values
import Verif.Lemmas.Denote
import Verif.Lemmas.Dens
import Verif.Props.Values
import Verif.Model.Rfc7230
import Verif.Spec.CommaList
import Verif.Lemmas.Defs
import Verif.Lemmas.CommaList
import Verif.Props.CommaList
import Verif.Model.Inputs
import Verif.Spec.Inputs
import Verif.Lemmas.Inputs
import Verif.Lemmas.Recombine
import Verif.Lemmas.Sniff
import Verif.Props.Inputs
import Verif.Model.Cli
import Verif.Props.Cli
import Verif.Model.TextReport
import Verif.Spec.Report
import Verif.Props.Report
import Verif.Model.Decoding
import Verif.Props.Decoding
import Verif.Model.Derived
import Verif.Props.Derived
import Verif.Model.Program
import Verif.Spec.Program
import Verif.Lemmas.Program
import Verif.Spec.Tab
import Verif.Lemmas.Tab
import Verif.Model.Rfc7231
import Verif.Spec.Dates
import Verif.Lemmas.Calendar
import Verif.Lemmas.Words
import Verif.Lemmas.Dates
import Verif.Lemmas.ModuleNt
import Verif.Props.Modules
import Verif.Props.Dates
import Verif.Lemmas.TabList
import Verif.Model.Rfc7233
import Verif.Spec.Ranges
import Verif.Lemmas.Ranges
import Verif.Lemmas.ListText
import Verif.Props.Ranges
import Verif.Model.KnownTables
import Verif.Model.CheckBase
import Verif.Model.CheckMessage
import Verif.Model.CheckResponse
import Verif.Spec.Checks
import Verif.Spec.ToyChecks
import Verif.Lemmas.Acts
import Verif.Lemmas.CheckIds
import Verif.Lemmas.CheckExchange
import Verif.Lemmas.CheckViews
import Verif.Lemmas.CheckAlone
import Verif.Props.Checks
import Verif.Lemmas.CheckSays
import Verif.Spec.Notices
import Verif.Spec.Answers
import Verif.Lemmas.CheckRaw
import Verif.Lemmas.CheckLists
import Verif.Lemmas.Locate
import Verif.Lemmas.ToyNotices
import Verif.Props.Notices
import Verif.Lemmas.LocateMessage
import Verif.Lemmas.RawMore
import Verif.Lemmas.RawAnswer
import Verif.Props.MessageNotices
import Verif.Props.AnswerNotices
import Verif.Spec.Caches
import Verif.Spec.Credentials
import Verif.Lemmas.RawCaches
import Verif.Lemmas.RawConditional
import Verif.Spec.Fields
import Verif.Lemmas.RawCredentials
import Verif.Lemmas.RawFields
import Verif.Lemmas.ToyFields
import Verif.Lemmas.ToyMore
import Verif.Props.CacheNotices
import Verif.Props.DirectiveNotices
import Verif.Props.AuthNotices
import Verif.Props.FieldNotices
import Verif.Model.Strings
import Verif.Model.Import
import Verif.Model.StringsModule
import Verif.Model.Rfc7232
import Verif.Model.Rfc7230Headers
import Verif.Spec.Reads
import Verif.Spec.Strings
import Verif.Spec.EntityTags
import Verif.Spec.Parameters
import Verif.Lemmas.Unique
import Verif.Lemmas.Strings
import Verif.Lemmas.Import
import Verif.Lemmas.StringsModule
import Verif.Lemmas.EntityTags
import Verif.Lemmas.Parameters
import Verif.Props.Reads
import Verif.Props.EntityTags
import Verif.Spec.Hops
import Verif.Lemmas.Hops
import Verif.Props.Hops
import Verif.Model.Rfc7234
import Verif.Spec.Settings
import Verif.Lemmas.Settings
import Verif.Props.Settings
import Verif.Model.Rfc7231Headers
import Verif.Spec.Negotiation
import Verif.Lemmas.Negotiation
import Verif.Lemmas.NegotiationText
import Verif.Props.Negotiation
import Verif.Model.Rfc7235
import Verif.Spec.Challenges
import Verif.Lemmas.Challenges
import Verif.Lemmas.ChallengesText
import Verif.Props.Challenges
import Verif.Model.Rfc3986
import Verif.Spec.Uri
import Verif.Lemmas.Verbatim
import Verif.Lemmas.Encoded
import Verif.Lemmas.Addresses
import Verif.Lemmas.Uri
import Verif.Props.Uri
import Verif.Model.SmallModules
import Verif.Spec.Preferences
import Verif.Lemmas.Preferences
import Verif.Props.Preferences
import Verif.Model.Rfc8288
import Verif.Spec.Links
import Verif.Lemmas.LinkParams
import Verif.Lemmas.UriChars
import Verif.Lemmas.Links
import Verif.Props.Links
import Verif.Model.FetchModules
import Verif.Spec.Fetch
import Verif.Lemmas.Fetch
import Verif.Lemmas.FetchText
import Verif.Props.Fetch
import Verif.Model.Languages
import Verif.Spec.Languages
import Verif.Lemmas.Languages
import Verif.Props.Languages
import Verif.Model.Rfc8187
import Verif.Spec.Encoded
import Verif.Lemmas.Utf8
import Verif.Lemmas.ExtValues
import Verif.Lemmas.ExtText
import Verif.Props.ExtValues
import Verif.Model.Rfc7838
import Verif.Spec.AltSvc
import Verif.Lemmas.Protocols
import Verif.Lemmas.AltSvc
import Verif.Props.AltSvc
import Verif.Model.Comments
import Verif.Spec.Comments
import Verif.Lemmas.Comments
import Verif.Lemmas.CommentsText
import Verif.Props.Comments
import Verif.Model.Har
import Verif.Spec.Har
import Verif.Lemmas.Har
import Verif.Lemmas.HarErrors
import Verif.Props.Har
import Verif.Model.Views
import Verif.Spec.Views
import Verif.Lemmas.Views
import Verif.Lemmas.ViewHeaders
import Verif.Lemmas.ViewArgs
import Verif.Lemmas.ViewForwarded
import Verif.Props.Views
import Verif.Model.Knowledge
import Verif.Spec.Knowledge
import Verif.Lemmas.Knowledge
import Verif.Lemmas.KnowledgeLoad
import Verif.Props.Knowledge
import Verif.Model.Html
import Verif.Spec.Html
import Verif.Lemmas.Html
import Verif.Lemmas.HtmlShow
import Verif.Lemmas.HtmlMarkup
import Verif.Props.Html
import Verif.Model.World
import Verif.Spec.Written
import Verif.Lemmas.World
import Verif.Props.World
import Verif.Spec.HeaderNotices
import Verif.Lemmas.HeaderNotices
import Verif.Spec.HeaderForms
import Verif.Lemmas.HeaderForms
import Verif.Props.HeaderForms
import Verif.Props.HeaderRepeats
import Verif.Model.Payload
import Verif.Spec.Payload
import Verif.Lemmas.Foreign
import Verif.Lemmas.Payload
import Verif.Props.Payload
import Verif.Model.Catalogue
import Verif.Spec.Catalogue
import Verif.Lemmas.Catalogue
import Verif.Props.Catalogue
import Verif.Model.Analysis
import Verif.Spec.Analysis
import Verif.Lemmas.Analysis
import Verif.Props.Analysis
import Verif.Spec.Texts
import Verif.Props.Texts
import Verif.Model.Captures
import Verif.Spec.Captures
import Verif.Props.Captures
import Verif.Model.KnownDump
import Verif.Spec.KnownDump
import Verif.Lemmas.KnownDump
import Verif.Props.KnownDump
import Verif.Model.NoticeXml
import Verif.Model.NoticeFile
import Verif.Spec.NoticeXml
import Verif.Spec.NoticeFile
import Verif.Lemmas.NoticeXml
import Verif.Lemmas.NoticeFile
import Verif.Props.NoticeXml
import Verif.Props.NoticeFile
import Verif.Model.Run
import Verif.Spec.Run
import Verif.Props.Run
import Verif.Model.LinkRaise
import Verif.Spec.LinkText
import Verif.Props.LinkText
import Verif.Model.StreamRun
import Verif.Spec.StreamRun
import Verif.Props.StreamRun
import Verif.Model.HarRun
import Verif.Spec.HarRun
import Verif.Props.HarRun
import Verif.Model.Output
import Verif.Spec.Output
import Verif.Props.Output
import Verif.Spec.Crash
import Verif.Props.Crash
import Verif.Props.CrashRun
import Verif.Model.HarOutput
import Verif.Spec.HarOutput
import Verif.Props.HarOutput
import Verif.Model.FailRun
import Verif.Spec.FailRun
import Verif.Props.FailRun
import Verif.Model.HtmlRun
import Verif.Spec.HtmlRun
import Verif.Lemmas.HtmlNotices
import Verif.Props.HtmlRun
import Verif.Model.HarHtml
import Verif.Spec.HarHtml
import Verif.Props.HarHtml
