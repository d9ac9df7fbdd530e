import Verif.Go
import Verif.Token.Lexer
import Verif.Token.Scan
import Verif.Token.Refine
import Verif.Token.Spec
import Verif.Token.Lemmas
import Verif.Token.Props
import Verif.GoLib
import Verif.GoLibLemmas
import Verif.Token.Value
import Verif.Charset
import Verif.Time
import Verif.Element.Model
import Verif.Element.Spec
import Verif.Element.Lemmas
import Verif.Element.DateLemmas
import Verif.Element.GroupLemmas
import Verif.Element.MoreLemmas
import Verif.Element.Props
import Verif.Segment.Model
import Verif.Segment.Spec
import Verif.Segment.Lemmas
import Verif.Segment.Sound
import Verif.Segment.Plain
import Verif.Segment.Props
import Verif.Message.Spec
import Verif.Message.Extractor
import Verif.Message.ExtractorLemmas
import Verif.Message.ExtractorProps
import Verif.Message.Model
import Verif.Message.Lemmas
import Verif.Message.Props
import Verif.Iban.Model
import Verif.Iban.Spec
import Verif.Iban.Lemmas
import Verif.Iban.Props
import Verif.Domain.Model
import Verif.Domain.Props
import Verif.Bankinfo.Model
import Verif.Bankinfo.Props
import Verif.Element.PartsLemmas
import Verif.Message.Reader
import Verif.Message.ReaderLemmas
import Verif.Message.ReaderProps
import Verif.Element.Groups
import Verif.Element.GroupsLemmas
import Verif.Element.GroupsProps
import Verif.Segment.Requests
import Verif.Segment.RequestProps
import Verif.Transport.Model
import Verif.Transport.Props
import Verif.Dialog.Model
import Verif.Dialog.Lemmas
import Verif.Dialog.Shape
import Verif.Dialog.History
import Verif.Dialog.Calls
import Verif.Dialog.Sample
import Verif.Dialog.Props
import Verif.Dialog.StateProps
import Verif.Dialog.SupportedProps
import Verif.Swift.Lexer
import Verif.Swift.Scan
import Verif.Swift.Spec
import Verif.Swift.Extract
import Verif.Swift.Lemmas
import Verif.Swift.Complete
import Verif.Swift.Props
import Verif.Swift.Model
import Verif.Swift.DateProps
import Verif.Swift.LineSpec
import Verif.Swift.LineProps
import Verif.Swift.MessageProps
import Verif.Swift.StatementSpec
import Verif.Swift.StatementProps
import Verif.Swift.HeadProps
import Verif.Swift.FieldProps
import Verif.Client.Model
import Verif.Client.MergeProps
import Verif.Client.Lemmas
import Verif.Client.Sample
import Verif.Client.Props
import Verif.Client.NewProps
import Verif.Client.BalanceProps
import Verif.Client.AccountProps
import Verif.Client.HistoryProps
import Verif.TimeArith
import Verif.TimeArithLemmas
import Verif.Bank.Elements
import Verif.Bank.Segments
import Verif.Bank.Views
import Verif.Bank.WireLemmas
import Verif.Bank.CarryLemmas
import Verif.Bank.BalanceProps
import Verif.Bank.StatementProps
import Verif.Bank.StatusProps
import Verif.Bank.GroupWire
import Verif.Bank.SetupProps
import Verif.Bank.UserProps
import Verif.Bank.TanProps
import Verif.Bank.CrashProps
import Verif.Bank.TypeProps
import Verif.Bank.CalmProps
import Verif.Dialog.ContentProps
import Verif.Dialog.FoldLemmas
import Verif.Dialog.BankDataProps
import Verif.Client.SyncProps
import Verif.Bank.Answer
import Verif.Bank.Envelope
import Verif.Bank.AnswerSample
import Verif.Bank.AnswerProps
import Verif.Dialog.Delivery
import Verif.Dialog.DeliveryProps
import Verif.Dialog.TwinProps
import Verif.Dialog.OrderProps
import Verif.Dialog.ClockProps
import Verif.Dialog.LeftoverProps
import Verif.Dialog.WireProps
import Verif.Dialog.CrashProps
import Verif.Crypto.Model
import Verif.Crypto.Lemmas
import Verif.Crypto.RsaProps
import Verif.Crypto.IsoLemmas
import Verif.Crypto.IsoBlock
import Verif.Crypto.IsoProps
import Verif.Message.Bare
import Verif.Bank.BareLemmas
import Verif.Bank.LogLemmas
import Verif.Bank.Harmless
import Verif.Bank.Jobs
import Verif.Bank.Sending
import Verif.Transport.Logging
import Verif.Transport.Utf8
import Verif.Transport.Utf8Props
import Verif.Bank.Lists
import Verif.Bank.ListProps
import Verif.Bank.LoggingProps
import Verif.Bankinfo.Table
import Verif.Client.TableProps
import Verif.Message.Reference
import Verif.Message.ReferenceProps
import Verif.Bank.FetchProps
import Verif.Bank.ServiceLemmas
import Verif.Bank.ServiceSample
import Verif.Bank.ServiceProps
import Verif.Bank.FirstLemmas
import Verif.Bank.FirstProps
import Verif.Bank.RecoverLemmas
import Verif.Bank.RecoverProps
import Verif.Element.Validity
import Verif.Element.ValidityProps
import Verif.Client.ValidityProps
import Verif.Message.Keys
import Verif.Message.KeysProps
import Verif.Client.Information
import Verif.Client.InformationProps
import Verif.Bank.InformationProps
import Verif.Domain.Report
import Verif.Domain.ReportProps
import Verif.Domain.Printed
import Verif.Domain.PrintedLemmas
import Verif.Domain.PrintedProps
import Verif.Domain.Today
import Verif.Domain.TodayProps
import Verif.Bankinfo.Parser
import Verif.Bankinfo.ParserProps
import Verif.Bankinfo.Written
import Verif.Bankinfo.GoText
import Verif.Bankinfo.WrittenProps
import Verif.SetterProps
import Verif.Cli.Model
import Verif.Cli.Props
import Verif.Message.Texts
import Verif.Message.TextProps
import Verif.Message.RdhSign
import Verif.Message.RdhSignProps
import Verif.Message.Unmarshaler
import Verif.Message.UnmarshalerProps
import Verif.Bank.Wrappers
import Verif.Bank.WrapperProps
import Verif.Generator.Model
import Verif.Generator.Props
import Verif.Logger.Model
import Verif.Logger.Props
import Verif.Element.StableProps
import Verif.Dialog.PinProps
import Verif.Segment.MoreRequests
import Verif.Segment.StandardProps
import Verif.Dialog.ReadProps
import Verif.Client.ReadProps
import Verif.Client.CrashProps
import Verif.Bank.ClientCalmProps
import Verif.Generator.FlagProps
import Verif.Generator.ReaderProps
import Verif.Generator.Directives
import Verif.Generator.DirectiveProps
import Verif.Generator.CommandProps
import Verif.Bank.IndexProps
