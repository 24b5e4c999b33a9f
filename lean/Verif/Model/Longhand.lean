import Verif.Model.Making

/- Conversions from the short syntax of a setting to its long syntax, on the structs that are read from files. -/

namespace Compose.Structs
open Rust Derive

/-- `From<Identifier> for ConfigOrSecret` (derived `FromShort`, other fields from `Default`),
/repo/src/service/config_or_secret.rs:29-86 and /repo/compose_spec_macros/src/as_short.rs:147-190. -/
def configOrSecretOfName (source : Str) : Record configOrSecret := (source, none, none, none, none, [], ())

/-- `From<Context> for Build` (derived `FromShort`, other fields from `Default`), /repo/src/service/build.rs:30-197 and
/repo/compose_spec_macros/src/as_short.rs:147-190. -/
def buildOfContext (E : Env) (context : Context) : Record (build E) := (some context, (buildDefault E).2)

/-- `ShortVolume::into_long`, /repo/src/service/volumes.rs:101-136. -/
def mountOfShort (self : ShortVolume) : MountOf :=
  match self.options with
  | some o =>
    let common' : Record common := ((commonNew self.containerPath).1, o.readOnly, (commonNew self.containerPath).2.2)
    match o.source with
    | .hostPath source =>
      .bind (source, some (bindOptionsDefault.1, true, o.selinux, bindOptionsDefault.2.2.2), common', ())
    | .volume source => .volume (some source, none, common', ())
  | none => .volume (mountVolumeNew (commonNew self.containerPath))

/-- `volumes::into_long_iter`, /repo/src/service/volumes.rs:46-48. -/
def volumesOfShort (volumes : List (ShortOrLong ShortVolume MountOf)) : List MountOf :=
  volumes.map (ShortOrLong.intoLong mountOfShort)

/-- `ShortPort::into_long_iter`, /repo/src/service/ports.rs:256-269. -/
def portsOfShort (E : Env) (self : ShortPort E.ip.Ty) : List (Record (port E)) :=
  self.ranges.toList.map fun (host, container) =>
    ((portNew E container).1, container, host.map Range.ofU16, self.hostIp, self.protocol, (portNew E container).2.2.2.2.2)

/-- `ports::into_long_iter`, /repo/src/service/ports.rs:45-50. -/
def portsIntoLong (E : Env) (ports : List (ShortOrLong (ShortPort E.ip.Ty) (Record (port E)))) : List (Record (port E)) :=
  ports.flatMap fun
    | .short port => portsOfShort E port
    | .long port => [port]

/-- `EnvFile::into_list`, /repo/src/service/env_file.rs:45-50. -/
def EnvFiles.intoList : EnvFiles → List (ShortOrLong Str (Record envFileConfig))
  | .single path => [.short path]
  | .list files => files

end Compose.Structs
