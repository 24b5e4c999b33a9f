import Verif.Spec.Structs
import Verif.Spec.Ports
import Verif.Props.Duration

/- Where in a file reading can panic, and for which texts. -/

namespace Spec
open Rust Compose
open Props (GoodPrefix IsUnitRun)

/-- A text that panics as a duration: after terms that are read, a number of 2^64 or more with a unit. -/
def PanickingDuration (s : Str) : Prop :=
  ∃ ts ds u tail, GoodPrefix ts ∧ s = renderTerms ts ++ ds ++ u ++ tail ∧ IsNumber ds ∧ 2 ^ 64 ≤ decimal ds ∧ IsUnitRun u tail

/-- A text that panics as a short port: two ranges one of which cannot be sized, perhaps after an address, perhaps with a
protocol. -/
inductive PanickingPort {Ip E : Type} (ipParse : Str → Except E Ip) : Str → Prop
  | ranges {t pt : Str} {p : Option Protocol} : UnsizableRanges t → ProtocolSuffix pt p → PanickingPort ipParse (t ++ pt)
  | address {a t pt : Str} {ip : Ip} {p : Option Protocol} : AddressText ipParse a ip → '/' ∉ a → UnsizableRanges t →
      ProtocolSuffix pt p → PanickingPort ipParse (a ++ ":".toList ++ t ++ pt)

/-- How addresses are read in ports. -/
def readIp (E : Env) (s : Str) : Except Unit E.ip.Ty := (E.ip.parse s).elim (.error ()) .ok

/-- A step into a file: to the value of a key, to the value of any key, or to any item of a list. -/
inductive Step
  | key (k : String)
  | anyKey
  | item
  deriving DecidableEq, Repr

/-- A value is found in a file by some steps. -/
inductive At (w : Content) : List Step → Content → Prop
  | here : At w [] w
  | key {k : String} {p : List Step} {v : Content} {es : List (Content × Content)} : (.str k.toList, v) ∈ es → At w p v →
      At w (.key k :: p) (.map es)
  | anyKey {p : List Step} {k v : Content} {es : List (Content × Content)} : (k, v) ∈ es → At w p v →
      At w (.anyKey :: p) (.map es)
  | item {p : List Step} {v : Content} {vs : List Content} : v ∈ vs → At w p v → At w (.item :: p) (.seq vs)

/-- One value that is found in a file by some steps is replaced by a given one. -/
inductive Replaced (w : Content) : List Step → Content → Content → Prop
  | here {v : Content} : Replaced w [] v w
  | key {k : String} {p : List Step} {v v' : Content} {before after : List (Content × Content)} : Replaced w p v v' →
      Replaced w (.key k :: p) (.map (before ++ (.str k.toList, v) :: after)) (.map (before ++ (.str k.toList, v') :: after))
  | anyKey {p : List Step} {k v v' : Content} {before after : List (Content × Content)} : Replaced w p v v' →
      Replaced w (.anyKey :: p) (.map (before ++ (k, v) :: after)) (.map (before ++ (k, v') :: after))
  | item {p : List Step} {v v' : Content} {before after : List Content} : Replaced w p v v' →
      Replaced w (.item :: p) (.seq (before ++ v :: after)) (.seq (before ++ v' :: after))

/-- The same steps after a key. -/
def under (k : String) (ps : List (List Step)) : List (List Step) := ps.map (.key k :: ·)

/-- The durations of a restart policy. -/
def restartPolicyTimes : List (List Step) := [[.key "delay"], [.key "window"]]

/-- The durations of an update or rollback configuration. -/
def updateTimes : List (List Step) := [[.key "delay"], [.key "monitor"]]

/-- The durations of a healthcheck. -/
def healthcheckTimes : List (List Step) :=
  [[.key "interval"], [.key "timeout"], [.key "start_period"], [.key "start_interval"]]

/-- The durations of `deploy`. -/
def deployTimes : List (List Step) :=
  under "restart_policy" restartPolicyTimes ++ under "update_config" updateTimes ++ under "rollback_config" updateTimes

/-- The durations of a service. -/
def serviceTimes : List (List Step) :=
  [[.key "cpu_rt_runtime"], [.key "cpu_rt_period"], [.key "stop_grace_period"]] ++ under "healthcheck" healthcheckTimes ++
    under "deploy" deployTimes

/-- The ports of a service. -/
def servicePorts : List (List Step) := [[.key "ports", .item]]

/-- The steps from a file to its services. -/
def inServices (ps : List (List Step)) : List (List Step) := ps.map fun p => .key "services" :: .anyKey :: p

/-- A struct with durations or ports somewhere: its fields in the model and where they are. -/
structure TimedStruct where
  fields : List Derive.Item
  times : List (List Step)
  ports : List (List Step)

/-- The structs with durations or ports somewhere. -/
noncomputable def timedStructs (E : Env) : List TimedStruct :=
  [⟨Structs.restartPolicy, restartPolicyTimes, []⟩, ⟨Structs.updateOrRollbackConfig, updateTimes, []⟩,
    ⟨Structs.deploy E, deployTimes, []⟩, ⟨Structs.service E, serviceTimes, servicePorts⟩,
    ⟨Structs.compose E, inServices serviceTimes, inServices servicePorts⟩]

end Spec
