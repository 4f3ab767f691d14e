import Verif.Props.RoundTrip
import Verif.Props.Framing
import Verif.Props.Writing
import Verif.Props.Dispatch
import Verif.Props.Codes
import Verif.Props.Properties
import Verif.Props.Sections
import Verif.Props.Decoded
import Verif.Props.Fields
import Verif.Props.Grammar
import Verif.Props.Topic
import Verif.Props.Diagnose
import Verif.Props.Typed
import Verif.Props.Parts
import Verif.Props.New
import Verif.Props.Layout
import Verif.Props.Usize
import Verif.Props.Transport
import Verif.Props.Pipeline
import Verif.Props.Drift
import Verif.Props.Complete
import Verif.Props.Exact
import Verif.Props.Waiting
import Verif.Props.Work
import Verif.Props.While
import Verif.Props.Forward
import Verif.Props.Display
import Verif.Props.WriteWork
import Verif.Props.Patch
import Verif.Props.SizeLimit
import Verif.Props.Isolation
import Verif.Props.Cover
import Verif.Props.Behind
import Verif.Props.Relay
import Verif.Props.PartReaders
import Verif.Props.Strict
import Verif.Props.Peer
import Verif.Props.Outgoing
import Verif.Props.Buffering
import Verif.Props.Splitting
import Verif.Props.Deliver
import Verif.Props.Reply
import Verif.Props.Room
import Verif.Props.Trim
import Verif.Props.Route
import Verif.Props.Limits
import Verif.Props.Undo
import Verif.Props.Respond
import Verif.Props.Will
import Verif.Props.Subs
import Verif.Props.Order
import Verif.Props.Log
import Verif.Props.Mount
import Verif.Props.Alias
import Verif.Props.Retry
import Verif.Props.Once
import Verif.Props.Outbox
import Verif.Props.Journal
import Verif.Props.Exchange
import Verif.Validation
