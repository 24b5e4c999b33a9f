import Verif.Model.Structs

/- The functions `as_str` of the enums without data; `as_ref` and `Display` return the same text. -/

namespace Compose.Structs
open Rust

/-- `BindPropagation::as_str`, /repo/src/service/volumes/mount.rs:583-594. -/
def BindPropagation.asStr : BindPropagation → Str
  | .private => str!"private"
  | .shared => str!"shared"
  | .slave => str!"slave"
  | .unbindable => str!"unbindable"
  | .rPrivate => str!"rprivate"
  | .rShared => str!"rshared"
  | .rSlave => str!"rslave"
  | .rUnbindable => str!"runbindable"

/-- `Action::as_str`, /repo/src/service/develop.rs:85-91. -/
def Action.asStr : Action → Str
  | .rebuild => str!"rebuild"
  | .sync => str!"sync"
  | .syncAndRestart => str!"sync+restart"

/-- `ports::Mode::as_str`, /repo/src/service/ports.rs:205-210. -/
def PortMode.asStr : PortMode → Str
  | .host => str!"host"
  | .ingress => str!"ingress"

/-- `deploy::Mode::as_str`, /repo/src/service/deploy.rs:169-174. -/
def DeployMode.asStr : DeployMode → Str
  | .global => str!"global"
  | .replicated => str!"replicated"

/-- `RestartCondition::as_str`, /repo/src/service/deploy.rs:359-365. -/
def RestartCondition.asStr : RestartCondition → Str
  | .none => str!"none"
  | .onFailure => str!"on-failure"
  | .any => str!"any"

/-- `FailureAction::as_str`, /repo/src/service/deploy.rs:479-484. -/
def FailureAction.asStr : FailureAction → Str
  | .continue => str!"continue"
  | .pause => str!"pause"

/-- `Order::as_str`, /repo/src/service/deploy.rs:516-521. -/
def Order.asStr : Order → Str
  | .stopFirst => str!"stop-first"
  | .startFirst => str!"start-first"

/-- `Cgroup::as_str`, /repo/src/service.rs:818-823. -/
def Cgroup.asStr : Cgroup → Str
  | .host => str!"host"
  | .private => str!"private"

/-- `Condition::as_str`, /repo/src/service.rs:920-926. -/
def Condition.asStr : Condition → Str
  | .serviceStarted => str!"service_started"
  | .serviceHealthy => str!"service_healthy"
  | .serviceCompletedSuccessfully => str!"service_completed_successfully"

/-- `Uts::as_str`, /repo/src/service.rs:1235-1237. -/
def Uts.asStr : Uts → Str
  | .host => str!"host"

/-- `PullPolicy::as_str`, /repo/src/service.rs:1362-1369. -/
def PullPolicy.asStr : PullPolicy → Str
  | .always => str!"always"
  | .never => str!"never"
  | .missing => str!"missing"
  | .build => str!"build"

/-- `Restart::as_str`, /repo/src/service.rs:1405-1412. -/
def Restart.asStr : Restart → Str
  | .no => str!"no"
  | .always => str!"always"
  | .onFailure => str!"on-failure"
  | .unlessStopped => str!"unless-stopped"

end Compose.Structs

namespace Compose

/-- `SELinux::as_str`, /repo/src/service/volumes.rs:685-690. -/
def SELinux.asStr : SELinux → Rust.Str
  | .shared => str!"z"
  | .private => str!"Z"

end Compose
