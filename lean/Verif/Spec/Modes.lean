import Verif.Spec.Keys
import Verif.Model.Modes

/- Texts of links, namespace modes and `volumes_from` entries. -/

namespace Spec
open Rust (Str)
open Compose

/-- `{service}[:{alias}]` -/
inductive LinkText : Str → Link → Prop
  | bare {s : Str} : Identifier s → LinkText s ⟨s, none⟩
  | aliased {s a : Str} : Identifier s → LinkText (s ++ ":".toList ++ a) ⟨s, some a⟩

/-- `shareable`, `service:{service}`, or any other text. -/
inductive IpcText : Str → Ipc → Prop
  | shareable : IpcText "shareable".toList .shareable
  | service {i : Str} : Identifier i → IpcText ("service:".toList ++ i) (.service i)
  | other {s : Str} : s ≠ "shareable".toList → ¬ "service:".toList <+: s → IpcText s (.other s)

/-- `none`, `host`, `service:{service}`, `container:{container}`, or any other text. -/
inductive NetworkModeText : Str → NetworkMode → Prop
  | none : NetworkModeText "none".toList .none
  | host : NetworkModeText "host".toList .host
  | service {i : Str} : Identifier i → NetworkModeText ("service:".toList ++ i) (.service i)
  | container {i : Str} : Identifier i → NetworkModeText ("container:".toList ++ i) (.container i)
  | other {s : Str} : s ≠ "none".toList → s ≠ "host".toList → ¬ "service:".toList <+: s →
      ¬ "container:".toList <+: s → NetworkModeText s (.other s)

/-- `vip`, `dnsrr`, or any other text. -/
inductive EndpointModeText : Str → EndpointMode → Prop
  | vip : EndpointModeText "vip".toList .vip
  | dnsrr : EndpointModeText "dnsrr".toList .dnsrr
  | other {s : Str} : s ≠ "vip".toList → s ≠ "dnsrr".toList → EndpointModeText s (.other s)

/-- `gpu`, `tpu`, or any other text. -/
inductive CapabilityText : Str → Capability → Prop
  | gpu : CapabilityText "gpu".toList .gpu
  | tpu : CapabilityText "tpu".toList .tpu
  | other {s : Str} : s ≠ "gpu".toList → s ≠ "tpu".toList → CapabilityText s (.other s)

/-- `host`, `none`, or any other text. -/
inductive DriverText : Str → Driver → Prop
  | host : DriverText "host".toList .host
  | none : DriverText "none".toList .none
  | other {s : Str} : s ≠ "host".toList → s ≠ "none".toList → DriverText s (.other s)

/-- `[container:]{identifier}` -/
inductive VolumesFromSourceText : Str → VolumesFromSource → Prop
  | service {i : Str} : Identifier i → VolumesFromSourceText i (.service i)
  | container {i : Str} : Identifier i → VolumesFromSourceText ("container:".toList ++ i) (.container i)

/-- `[container:]{identifier}[:ro|:rw]`; a text ending in `:ro` or `:rw` always has that as its access mode. -/
inductive VolumesFromText : Str → VolumesFrom → Prop
  | ro {s : Str} {v : VolumesFromSource} : VolumesFromSourceText s v → VolumesFromText (s ++ ":ro".toList) ⟨v, true⟩
  | rw {s : Str} {v : VolumesFromSource} : VolumesFromSourceText s v → VolumesFromText (s ++ ":rw".toList) ⟨v, false⟩
  | plain {s : Str} {v : VolumesFromSource} : VolumesFromSourceText s v → ¬ ":ro".toList <:+ s → ¬ ":rw".toList <:+ s →
      VolumesFromText s ⟨v, false⟩

end Spec
