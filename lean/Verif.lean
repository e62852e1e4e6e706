import Verif.Props.Request
import Verif.Props.Send
import Verif.Props.Receive
import Verif.Props.Response
import Verif.Spec.Tokens
import Verif.Spec.View
import Verif.Lemmas.RecvLoop
import Verif.Lemmas.RecvTrace
import Verif.Ref.Http
import Verif.Ref.MachineView
import Verif.Props.ReceiveEx
import Verif.Props.SendRecv
import Verif.Props.ReadHeader
import Verif.Props.Shared
import Verif.Props.RoundTrip
import Verif.Props.Exchange
import Verif.Props.Session
import Verif.Props.EndToEnd
import Verif.Ref.Lookup
import Verif.Props.Lookup
import Verif.Ref.HeadersOnly
import Verif.Props.HeadersOnly
import Verif.Props.Extraneous
import Verif.Ref.Partial
import Verif.Props.Incomplete
import Verif.Props.UntilClose
import Verif.Spec.Steps
import Verif.Props.Steps
import Verif.Ref.MachineGen
import Verif.Ref.Section
import Verif.Spec.Section
import Verif.Props.Section
import Verif.Props.NetworkError
import Verif.Props.Time
import Verif.Props.Isolation
import Verif.Model.RequestPtr
import Verif.Spec.Aliasing
import Verif.Lemmas.Aliasing
import Verif.Props.Aliasing
import Verif.Spec.Rejected
import Verif.Props.Rejected
import Verif.Props.Interim
import Verif.Props.NoBody
import Verif.Props.Room
import Verif.Props.Resend
import Verif.Props.NoResponse
import Verif.Props.Statuses
import Verif.Props.Config
import Verif.Props.NullClock
import Verif.Ref.Joined
import Verif.Props.Joined
import Verif.Spec.Folded
import Verif.Lemmas.RecvStarts
import Verif.Lemmas.ReadHeaderFold
import Verif.Ref.Fold
import Verif.Props.Folded
import Verif.Ref.Upgrade
import Verif.Props.Upgrade
import Verif.Lemmas.NullCallback
import Verif.Props.NullCallback
import Verif.Spec.Download
import Verif.Props.Download
import Verif.Spec.Resume
import Verif.Props.Resume
import Verif.Spec.Discover
import Verif.Props.Discover
import Verif.Spec.Framing
import Verif.Props.Framing
import Verif.Spec.Redirect
import Verif.Props.Redirect
import Verif.Spec.Recover
import Verif.Props.Recover
import Verif.Spec.Place
import Verif.Ref.Place
import Verif.Props.Place
import Verif.Props.ResidueBuild
import Verif.Props.Residue
import Verif.Props.Larger
import Verif.Spec.Stored
import Verif.Props.Stored
import Verif.Spec.Slow
import Verif.Props.Slow
import Verif.Spec.Shift
import Verif.Props.Shift
import Verif.Spec.Persist
import Verif.Props.Persist
import Verif.Spec.Reuse
import Verif.Props.Reuse
import Verif.Spec.Expect
import Verif.Props.Expect
import Verif.Spec.SafeReuse
import Verif.Props.SafeReuse
import Verif.Spec.Early
import Verif.Props.Early
import Verif.Spec.Final
import Verif.Props.Final
import Verif.Spec.Again
import Verif.Props.Again
import Verif.Spec.Versions
import Verif.Props.Versions
import Verif.Spec.Cache
import Verif.Props.Cache
import Verif.Props.Whole
import Verif.Props.Upload
import Verif.Props.Arrive
import Verif.Props.Once
import Verif.Props.Update
import Verif.Props.Sizing
import Verif.Props.BodyAt
import Verif.Tests.Request
import Verif.Tests.Send
import Verif.Props.Wrap
import Verif.Props.Timeout
