import Verif.Model.Law
import Verif.Model.Utils
import Verif.Props.Num
import Verif.Props.RoundTrip
import Verif.Props.Reading
import Verif.Props.Tags
import Verif.Props.Fields
import Verif.Props.Order
import Verif.Props.Single
import Verif.Props.Utils
import Verif.Model.NumText
import Verif.Props.NumText
import Verif.Props.Items
import Verif.Props.ItemScripts
import Verif.Model.FromText
import Verif.Props.FromText
import Verif.Props.FromTextRoundTrip
import Verif.Props.Ignored
import Verif.Props.LineKinds
import Verif.Props.Letters
import Verif.Model.Io
import Verif.Props.Io
import Verif.Props.Stable
import Verif.Props.Accept
import Verif.Props.Schema
import Verif.Props.Decide
import Verif.Props.Rewrite
import Verif.Props.Verdict
import Verif.Props.Message
import Verif.Props.Extract
import Verif.Props.Scan
import Verif.Props.Built
import Verif.Props.BuiltUnique
import Verif.Props.ScanItem
import Verif.Props.ScanLine
import Verif.Model.Access
import Verif.Props.Access
import Verif.Spec.Settle
import Verif.Reading.Settle
import Verif.Reading.SettleRewrite
import Verif.Reading.SettleWeight
import Verif.Props.Settle
import Verif.Reading.SettleWritten
import Verif.Props.SettleTwice
import Verif.Props.TextKept
import Verif.Props.Layout
import Verif.Props.Unblank
import Verif.Props.Gather
import Verif.Props.UnitsOfLines
import Verif.Lemmas.Cut
import Verif.Props.Edit
import Verif.Spec.Attributes
import Verif.Props.Attributes
import Verif.Spec.XmlText
import Verif.Lemmas.XmlText
import Verif.Props.XmlText
import Verif.Props.ItemRanges
import Verif.Model.Serde
import Verif.Spec.Serde
import Verif.Lemmas.Serde
import Verif.Props.Serde
import Verif.Props.SerdeNames
import Verif.Spec.TocLeft
import Verif.Props.TocLeft
import Verif.Conformance
