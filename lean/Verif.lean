import Verif.Model.Parser
import Verif.Props.Tokenizer
import Verif.Props.Cursor
import Verif.Props.CursorApi
import Verif.Props.Classify
import Verif.Props.Sequence
import Verif.Props.Errors
import Verif.Props.Elements
import Verif.Props.Depth
import Verif.Props.Grammar
import Verif.Props.Accepted
import Verif.Props.Attributes
import Verif.Props.Climb
import Verif.Props.Ranges
import Verif.Props.Units
import Verif.Props.Angles
import Verif.Props.Xml
import Verif.Props.Faults
import Verif.Props.Reflect
import Verif.Props.Subtypes
import Verif.Props.Local
import Verif.Props.Layout
import Verif.Props.Print
import Verif.Props.Short
import Verif.Props.Causal
import Verif.Props.ErrOrder
import Verif.Props.Reads
import Verif.Props.Threads
import Verif.Props.Time
import Verif.Props.Recover
import Verif.Props.FreeText
import Verif.Props.Prefix
import Verif.Props.Sharing
import Verif.Props.Once
import Verif.Props.Meaning
import Verif.Props.Mend
import Verif.Props.Lossless
import Verif.Props.Unique
import Verif.Props.Reuse
import Verif.Props.Splice
import Verif.Props.Insert
import Verif.Props.Later
import Verif.Props.Direct
import Verif.Props.Section
import Verif.Props.Remark
import Verif.Props.Redundant
import Verif.Props.Written
import Verif.Props.WrongNumbers
import Verif.Props.Names
import Verif.Props.Trust
import Verif.Props.Aspects
import Verif.Props.Early
import Verif.Props.Exact
import Verif.Props.Compare
import Verif.Props.Places
import Verif.Props.Marks
import Verif.Props.Misfit
import Verif.Props.Reported
import Verif.Props.Arithmetic
import Verif.Lemmas.Spend
import Verif.Lemmas.Shares
import Verif.Props.Shares
import Verif.Lemmas.Loose
import Verif.Props.Faulty
import Verif.Props.Typo
import Verif.Lemmas.Skip
import Verif.Props.Gap
import Verif.Lemmas.Wipe
import Verif.Spec.Lost
import Verif.Props.Lost
import Verif.Spec.Torn
import Verif.Lemmas.Torn
import Verif.Props.Torn
import Verif.Replay
import Verif.Props.Crash
import Verif.Props.Connect
import Verif.Props.Due
import Verif.Props.Kinds
import Verif.Props.LostText
