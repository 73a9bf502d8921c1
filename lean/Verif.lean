import Verif.WorkQueue.Props
import Verif.WorkQueue.Float
import Verif.WorkQueue.FloatProps
import Verif.Router.Props
import Verif.ProxyEvents.Props
import Verif.Backend.Props
import Verif.Backend.WaitProps
import Verif.Backend.ReasonProps
import Verif.Backend.LookProps
import Verif.Backend.Ran
import Verif.Fleet.Demo
import Verif.Secrets.Props
import Verif.Session.Props
import Verif.Auth.Props
import Verif.Api.Props
import Verif.Options.Props
import Verif.Config.Props
import Verif.Utils.Props
import Verif.Kube.MergeProps
import Verif.Kube.InformerProps
import Verif.Kube.PodsProps
import Verif.Kube.ScalingProps
import Verif.Kube.PhasesProps
import Verif.Kube.WakeProps
import Verif.Sched.Props
import Verif.Sched.CommProps
import Verif.Client.Props
import Verif.Client.LifeProps
import Verif.Client.Widget
import Verif.Client.WidgetProps
import Verif.Client.Reason
import Verif.Client.ReasonProps
import Verif.Tcp.Props
import Verif.Backends.Props
import Verif.Env.Props
import Verif.Kube.ObjectsProps
import Verif.Addr.Props
import Verif.Kube.ViewProps
import Verif.Kube.ExpireProps
import Verif.Forward.Demo
import Verif.Supervise.Props
import Verif.Startup.Props
import Verif.Watch.Props
import Verif.EndToEnd.Model
import Verif.EndToEnd.Slots
import Verif.EndToEnd.Origin
import Verif.EndToEnd.Inv
import Verif.EndToEnd.Paths
import Verif.EndToEnd.Props
import Verif.EndToEnd.Demo
import Verif.Batch.Shell
import Verif.Batch.ShellProps
import Verif.Batch.Model
import Verif.Batch.Life
import Verif.Batch.Props
import Verif.Batch.Dirs
import Verif.Batch.Text
import Verif.Batch.Demo
import Verif.Boot.Model
import Verif.Boot.Props
import Verif.Boot.Requests
import Verif.Boot.Demo
import Verif.KubeLoop.Model
import Verif.KubeLoop.Runs
import Verif.KubeLoop.Props
import Verif.KubeLoop.Leak
import Verif.KubeLoop.Follow
import Verif.KubeLoop.Blame
import Verif.KubeLoop.Wake
import Verif.KubeLoop.Settle
import Verif.KubeLoop.Crew
import Verif.KubeLoop.CrewProps
import Verif.Settings.Model
import Verif.Settings.Props
import Verif.Settings.Http
import Verif.Settings.HttpProps
import Verif.Settings.HttpDemo
import Verif.Settings.Demo
import Verif.Wire.Model
import Verif.Wire.Json
import Verif.Wire.Cut
import Verif.Wire.Stream
import Verif.Wire.Props
import Verif.Wire.StreamProps
import Verif.Wire.Demo
import Verif.Handshake.Model
import Verif.Handshake.Props
import Verif.Yarn.Model
import Verif.Yarn.Inv
import Verif.Yarn.Steps
import Verif.Yarn.Shape
import Verif.Yarn.Life
import Verif.Yarn.Props
import Verif.Idle.Model
import Verif.Idle.Props
import Verif.Idle.SetupProps
import Verif.Local.Props
import Verif.Concurrent.Props
import Verif.Inproc.Props
import Verif.Helm.Props2
import Verif.Helm.Rbac
import Verif.Helm.RbacProps
import Verif.Helm.Schema
import Verif.Helm.SchemaProps
import Verif.Kube.AmountsProps
import Verif.Kube.OwnedProps
import Verif.Kube.OwnedNames
import Verif.Kube.StartProps
import Verif.Backend.CheckProps
import Verif.KubeLoop.CrewSettle
import Verif.Backend.GiveUp
import Verif.Client.ConnProps
import Verif.Session.ReplicasProps
import Verif.Options.Asked
import Verif.Backend.Acked
import Verif.Kube.AckedProps
import Verif.Backend.SqlProps
import Verif.Build.Props
import Verif.Tasks.Props
import Verif.Config.Accepted
import Verif.Wire.Strict
import Verif.Handshake.Period
import Verif.Boot.Written
import Verif.Serving.Model
import Verif.Serving.Props
import Verif.Session.Choice
import Verif.Session.ChoiceProps
import Verif.Kube.ViewHttp
import Verif.KubeLoop.CrewWake
import Verif.Options.Handler
import Verif.Options.HandlerProps
import Verif.Kube.Clock
import Verif.Kube.ClockProps
import Verif.Options.Object
import Verif.Options.ObjectProps
import Verif.Options.ObjectDemo
import Verif.Kube.LimitedProps
import Verif.Flag.Props
import Verif.Stop.Props
import Verif.Router.ListingProps
import Verif.Command.Props
import Verif.Chosen.Model
import Verif.Chosen.Props
import Verif.Auth.Hub
import Verif.Auth.HubProps
import Verif.Generate.Model
import Verif.Generate.Props
