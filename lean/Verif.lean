import Verif.Scanner.Props
import Verif.Subst.Props
import Verif.Subst.MoreLemmas
import Verif.Subst.MoreProps
import Verif.Subst.RefProps
import Verif.Transform.Props
import Verif.Transform.IndepProps
import Verif.Transform.OrderProps
import Verif.Transform.RouteModel
import Verif.Transform.RouteLemmas
import Verif.Transform.RouteProps
import Verif.LocalApi.Props
import Verif.LocalApi.DeadlineProps
import Verif.WebSocket.Props
import Verif.WebSocket.IsoProps
import Verif.WebSocket.LostProps
import Verif.WebSocket.LockProps
import Verif.Acks.Props
import Verif.Acks.Wait
import Verif.Acks.WaitSpec
import Verif.Acks.WaitLemmas
import Verif.Acks.StuckLemmas
import Verif.Acks.EndLemmas
import Verif.Acks.NamedLemmas
import Verif.Acks.WaitProps
import Verif.Cluster.Props
import Verif.Cluster.OrderProps
import Verif.Cluster.Bounded
import Verif.Cluster.BoundedProps
import Verif.Sig.Props
import Verif.Sig.DocProps
import Verif.Sqs.Props
import Verif.CliConfig.LineModel
import Verif.CliConfig.LineProps
import Verif.CliConfig.LineSpec
import Verif.CliConfig.Props
import Verif.CliInit.Props
import Verif.CliConfig.ApartProps
import Verif.CliConfig.FlagProps
import Verif.RtConfig.Props
import Verif.CliValidate.Props
import Verif.CliValidate.ScreenProps
import Verif.ExecStore.Props
import Verif.TmplFuncs.Props
import Verif.TmplParser.Props
import Verif.Payload.Props
import Verif.Workflow.Props
import Verif.Workflow.RunProps
import Verif.Workflow.ParProps
import Verif.Workflow.EndProps
import Verif.Workflow.MoreProps
import Verif.Blueprint.Props
import Verif.Blueprint.LoadProps
import Verif.Blueprint.KeepProps
import Verif.Blueprint.SourceProps
import Verif.Blueprint.FieldProps
import Verif.Blueprint.DeclProps
import Verif.Sdk.Props
import Verif.Sdk.FfiLifeProps
import Verif.Sdk.RunModel
import Verif.Sdk.RunProps
import Verif.Sdk.BackModel
import Verif.Sdk.BackLemmas
import Verif.Sdk.BackProps
import Verif.Sdk.HeapModel
import Verif.Sdk.HeapLemmas
import Verif.Sdk.HeapProps
import Verif.Wire.EventProps
import Verif.Wire.ConfigProps
import Verif.Wire.RefuseProps
import Verif.Wire.FieldProps
import Verif.Startup.Model
import Verif.Startup.Spec
import Verif.Startup.RouteLemmas
import Verif.Startup.AcceptLemmas
import Verif.Startup.SourceLemmas
import Verif.Startup.FormatLemmas
import Verif.Startup.LifeLemmas
import Verif.Startup.SetupLemmas
import Verif.Startup.Examples
import Verif.Startup.Props
import Verif.Startup.EventProps
import Verif.Startup.RemoteModel
import Verif.Startup.RemoteProps
import Verif.Workflow.TimeProps
import Verif.Workflow.AttemptProps
import Verif.FlowApi.Model
import Verif.FlowApi.Spec
import Verif.FlowApi.Lemmas
import Verif.FlowApi.Props
import Verif.FlowApi.RouteModel
import Verif.FlowApi.RouteSpec
import Verif.FlowApi.RouteProps
import Verif.Startup.AccessModel
import Verif.Startup.AccessSpec
import Verif.Startup.AccessProps
import Verif.Startup.BaseProps
import Verif.Trace.Model
import Verif.Trace.Spec
import Verif.Trace.Lemmas
import Verif.Trace.Props
import Verif.Trace.ReadProps
import Verif.Workflow.HistoryProps
import Verif.Workflow.Lock
import Verif.Workflow.LockProps
import Verif.FlowApi.HistoryProps
import Verif.Workflow.LatestProps
import Verif.Workflow.FollowProps
import Verif.Workflow.RemoteProps
import Verif.FlowApi.World
import Verif.FlowApi.WorldProps
import Verif.FlowApi.DeployModel
import Verif.FlowApi.DeployProps
import Verif.Acks.AloneProps
import Verif.Payload.LocalProps
import Verif.Sig.ErrProps
