import Verif.Model.Words

/- The enums without data, with how they are written in a file and how they are displayed. -/

namespace Spec
open Rust Compose Compose.Derive

/-- An enum without data. -/
structure Words where
  Ty : Type
  codec : Codec Ty
  asStr : Ty → Str

/-- All of them. -/
def words : List Words :=
  [⟨Structs.BindPropagation, Structs.bindPropagation, Structs.BindPropagation.asStr⟩,
    ⟨Structs.Action, Structs.action, Structs.Action.asStr⟩,
    ⟨Structs.PortMode, Structs.portMode, Structs.PortMode.asStr⟩,
    ⟨Structs.DeployMode, Structs.deployMode, Structs.DeployMode.asStr⟩,
    ⟨Structs.RestartCondition, Structs.restartCondition, Structs.RestartCondition.asStr⟩,
    ⟨Structs.FailureAction, Structs.failureAction, Structs.FailureAction.asStr⟩,
    ⟨Structs.Order, Structs.order, Structs.Order.asStr⟩,
    ⟨Structs.Cgroup, Structs.cgroup, Structs.Cgroup.asStr⟩,
    ⟨Structs.Condition, Structs.condition, Structs.Condition.asStr⟩,
    ⟨Structs.Uts, Structs.uts, Structs.Uts.asStr⟩,
    ⟨Structs.PullPolicy, Structs.pullPolicy, Structs.PullPolicy.asStr⟩,
    ⟨Structs.Restart, Structs.restart, Structs.Restart.asStr⟩,
    ⟨SELinux, Codecs.selinux, SELinux.asStr⟩]

end Spec
