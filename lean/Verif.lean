import Verif.Py
import Verif.Regex
import Verif.Syntax
import Verif.NoteTable
import Verif.Val
import Verif.Note
import Verif.Eff
import Verif.Utf8
import Verif.Env
import Verif.Utils
import Verif.FieldTable
import Verif.Types
import Verif.Fields
import Verif.Section
import Verif.Descriptions
import Verif.Encoding
import Verif.Cache
import Verif.Status
import Verif.Content
import Verif.Message
import Verif.Cli
import Verif.I18n
import Verif.NoteNeeds
import Verif.Props.Basic
import Verif.Props.Toy
import Verif.Props.Frame
import Verif.Props.GzipHeader
import Verif.Props.Decoding
import Verif.Props.History
import Verif.Props.Feeding
import Verif.Props.Emits
import Verif.Props.FieldEmits
import Verif.Props.SectionEmits
import Verif.Props.MessageEmits
import Verif.Props.Reach
import Verif.Props.Notes
import Verif.Props.Finish
import Verif.Props.Length
import Verif.Props.CacheSpec
import Verif.Props.CacheProof
import Verif.Props.Caching
import Verif.Props.CachingEx
import Verif.Props.Lines
import Verif.Props.Handlers
import Verif.Props.Sections
import Verif.Props.Finder
import Verif.Props.Lookup
import Verif.Props.Strings
import Verif.Props.CliThm
import Verif.Props.Grammar
import Verif.Props.Identity
import Verif.Props.LineNotes
import Verif.Props.SectionNotes
import Verif.Props.SectionThm
import Verif.Props.Values
import Verif.Props.Sim
import Verif.Props.Feed
import Verif.Props.FrameNotes
import Verif.Props.Outcome
import Verif.Props.FinishValues
import Verif.Props.FinishFrame
import Verif.Props.FieldValues
import Verif.Props.FieldThm
import Verif.Props.SyntaxThm
import Verif.Props.StatusThm
import Verif.Props.ContentThm
import Verif.Props.Ints
import Verif.Props.Topline
import Verif.Props.Own
import Verif.Props.FieldNotes
import Verif.Props.OwnNotes
import Verif.Props.NumberThm
import Verif.Props.ValueNotes
import Verif.Props.CacheControlThm
import Verif.Props.HstsThm
import Verif.Props.CookieThm
import Verif.Props.GrammarThm
import Verif.Props.ParamsThm
import Verif.Props.MediaThm
import Verif.Props.DateThm
import Verif.Props.RangeThm
import Verif.Props.ContentRangeThm
import Verif.Props.CorsThm
import Verif.Props.Typing
import Verif.Props.Facts
import Verif.Props.Total
import Verif.Props.TypedFields
import Verif.Props.PinpointThm
import Verif.Props.CaseThm
import Verif.Props.CaseHistory
import Verif.Props.ListThm
import Verif.Props.CombineThm
import Verif.Props.CookieDateThm
import Verif.Props.CliBodyThm
import Verif.Props.EvalTotal
import Verif.Props.SectionTotal
import Verif.Props.FinishTotal
import Verif.Props.CheckTotal
import Verif.Props.SessionTotal
import Verif.Props.CharsetName
import Verif.Props.SessionThm
import Verif.Props.SessionEx
import Verif.Props.OffsetThm
import Verif.Props.Reports
import Verif.Props.PolicyThm
import Verif.Props.CspThm
import Verif.Props.PolicyEx
import Verif.Props.HopThm
import Verif.Props.HopEx
import Verif.Props.ParamFields
import Verif.Props.NegotiationThm
import Verif.Props.ParamEx
import Verif.Props.ServiceThm
import Verif.Props.StructuredThm
import Verif.Props.ServiceEx
import Verif.Props.TypesThm
import Verif.Props.TimeThm
import Verif.Props.TypesEx
import Verif.Props.OriginThm
import Verif.Props.OriginEx
import Verif.Props.StatusFields
import Verif.Props.JsonThm
import Verif.Props.JsonEx
import Verif.Props.EndThm
import Verif.Props.PostFrame
import Verif.Props.PostThm
import Verif.Props.NelThm
import Verif.Props.CspEndThm
import Verif.Props.CacheReport
import Verif.Props.CorruptThm
import Verif.Props.UnnecessaryThm
import Verif.Props.Utf8Thm
import Verif.Props.IriThm
import Verif.Props.DescriptionThm
import Verif.Props.FullReports
import Verif.Props.CookieReports
import Verif.Props.RangeReports
import Verif.Props.StatusReport
import Verif.Props.CorsReports
import Verif.Props.Bears
import Verif.Props.BearsFields
import Verif.Props.Defaults
import Verif.Props.ContextThm
import Verif.Props.SaidThm
import Verif.Props.MessageSaid
import Verif.Props.FieldEx
import Verif.Props.PostEx
import Verif.Props.MarkupThm
import Verif.Props.MarkupEx
import Verif.Props.ParamNotes
import Verif.Props.Shown
import Verif.Props.Recorded
import Verif.Props.UnnecessaryName
import Verif.Props.Chunks
import Verif.Props.CorruptMany
import Verif.Props.ThreadsThm
import Verif.Props.Exchange
import Verif.Props.ExchangeThm
import Verif.Props.Abnf
import Verif.Props.AbnfThm
import Verif.Props.TargetThm
import Verif.Props.AloneThm
import Verif.Props.Moved
import Verif.Props.AloneLines
import Verif.Props.OrderThm
import Verif.Props.OrderAll
import Verif.Props.OrderAllEx
import Verif.Props.ContextEnd
import Verif.Props.AloneReturns
