import Verif.Props.Codec
import Verif.Props.Reading
import Verif.Props.Query
import Verif.Props.Api
import Verif.Props.Server
import Verif.Props.Sync
import Verif.Props.Profiles
import Verif.Props.Served
import Verif.Props.Setting
import Verif.Model.Http
import Verif.Spec.Http
import Verif.Props.Http
import Verif.Lemmas.Post
import Verif.Model.Client
import Verif.Spec.Client
import Verif.Props.Client
import Verif.Model.Leak
import Verif.Spec.Leak
import Verif.Lemmas.Leak
import Verif.Props.Leak
import Verif.Spec.Age
import Verif.Lemmas.Neutral
import Verif.Lemmas.Age
import Verif.Props.Age
import Verif.Lemmas.Echo
import Verif.Props.Echo
import Verif.Model.PbDesc
import Verif.Model.Pb
import Verif.Model.PbBind
import Verif.Spec.Proto
import Verif.Lemmas.Pb
import Verif.Props.Proto
import Verif.Spec.Command
import Verif.Lemmas.Writes
import Verif.Props.Command
import Verif.Spec.Polling
import Verif.Props.Polling
import Verif.Props.Requests
import Verif.Model.PortLine
import Verif.Spec.Live
import Verif.Spec.Recover
import Verif.Spec.Closed
import Verif.Lemmas.Fresh
import Verif.Props.Fresh
import Verif.Lemmas.Live
import Verif.Lemmas.Recover
import Verif.Lemmas.Closed
import Verif.Props.Live
import Verif.Props.Recover
import Verif.Props.Closed
import Verif.Props.RepoTests
import Verif.Spec.Worker
import Verif.Props.Worker
import Verif.Spec.Load
import Verif.Lemmas.Load
import Verif.Props.Load
import Verif.Props.Timed
import Verif.Spec.Startup
import Verif.Props.Startup
import Verif.Lemmas.Moment
import Verif.Lemmas.Steps
import Verif.Spec.Steps
import Verif.Props.Steps
import Verif.Props.Originals
import Verif.Props.Config
import Verif.Model.GoClient
import Verif.Spec.GoClient
import Verif.Props.GoClient
import Verif.Props.Hold
import Verif.Spec.Text
import Verif.Lemmas.Text
import Verif.Props.Text
import Verif.Props.Healthy
import Verif.Spec.Cause
import Verif.Props.Cause
import Verif.Model.Deadline
import Verif.Spec.Deadline
import Verif.Lemmas.Deadline
import Verif.Lemmas.Patience
import Verif.Props.Deadline
import Verif.Model.Async
import Verif.Spec.Async
import Verif.Props.Async
import Verif.Model.Json
import Verif.Spec.Json
import Verif.Lemmas.Json
import Verif.Lemmas.JsonWrite
import Verif.Props.Json
import Verif.Props.JsonLib
import Verif.Spec.EndToEnd
import Verif.Props.EndToEnd
import Verif.Model.Path
import Verif.Spec.Path
import Verif.Props.Path
import Verif.Model.Logging
import Verif.Spec.Logging
import Verif.Lemmas.Logging
import Verif.Props.Logging
import Verif.Spec.Range
import Verif.Props.Name
import Verif.Props.Range
import Verif.Model.Main
import Verif.Spec.Main
import Verif.Props.Main
import Verif.Spec.Read
import Verif.Props.Read
import Verif.Spec.GoRead
import Verif.Spec.Again
import Verif.Props.GoRead
import Verif.Props.Again
import Verif.Model.ServerLog
import Verif.Spec.ServerLog
import Verif.Props.ServerLog
import Verif.Model.PacketText
import Verif.Spec.PacketText
import Verif.Props.PacketText
import Verif.Model.Repr
import Verif.Spec.Repr
import Verif.Props.Repr
import Verif.Spec.Turn
import Verif.Props.Turn
import Verif.Props.Prompt
import Verif.Props.Takes
import Verif.Props.Jobs
import Verif.Spec.Late
import Verif.Lemmas.Play
import Verif.Props.Late
import Verif.Spec.Tickers
import Verif.Props.Tickers
import Verif.Spec.Shown
import Verif.Props.Shown
import Verif.Props.ShownPy
import Verif.Props.Soon
import Verif.Props.SoonGo
import Verif.Props.SoonPy
import Verif.Props.Told
