import Verif.Model.Longhand
import Verif.Model.Load
import Verif.Spec.Making
import Verif.Spec.Ports

/- Settings that may be written in a short or in a long syntax: how the long syntax of a setting is written, and what it means
that a file is rewritten without short syntax. -/

namespace Spec.Longhand
open Rust Compose Compose.Derive Compose.Codecs Compose.Structs

/-! ### Rewriting documents -/

/-- Rewrite what is neither a mapping nor null. -/
def unlessMapping (g : Content → Content) : Content → Content
  | .map es => .map es
  | .unit => .unit
  | v => g v

/-- Rewrite a string. -/
def ifText (g : Content → Content) : Content → Content
  | .str s => g (.str s)
  | v => v

/-- Rewrite every item of a list. -/
def eachItem (g : Content → Content) : Content → Content
  | .seq vs => .seq (vs.map g)
  | v => v

/-- Rewrite every value of a mapping. -/
def eachValue (g : Content → Content) : Content → Content
  | .map es => .map (es.map fun e => (e.1, g e.2))
  | v => v

/-- Rewrite the value of a key of a mapping. -/
def atKey (k : String) (g : Content → Content) : Content → Content
  | .map es => .map (es.map fun
    | (.str s, v) => (.str s, if s = k.toList then g v else v)
    | e => e)
  | v => v

/-! ### The long syntax of settings -/

/-- The long syntax of a config or secret that is given by its name. -/
def configOrSecret (name : Content) : Content := mappingOf [("source", name)]

/-- The long syntax of a limit. -/
def ulimit (value : Content) : Content := mappingOf [("soft", value), ("hard", value)]

/-- The long syntax of a build that is given by its context. -/
def build (context : Content) : Content := mappingOf [("context", context)]

/-- The long syntax of an included file that is given by its path. -/
def included (path : Content) : Content := mappingOf [("path", path)]

/-- The long syntax of an environment file that is given by its path. -/
def envFile (path : Content) : Content := mappingOf [("path", path)]

/-- The long syntax of a list of dependencies. -/
def dependsOn (names : List Content) : Content :=
  .map (names.map fun name => (name, mappingOf [("condition", asText "service_started")]))

/-- The long syntax of a list of networks. -/
def networks (names : List Content) : Content := .map (names.map fun name => (name, .unit))

/-- An entry that is there only if its value is. -/
def optional (k : String) (v : Option Content) : List (String × Content) := (v.map fun v => (k, v)).toList

/-- The letter for sharing a volume. -/
def selinux : SELinux → Content
  | .shared => asText "z"
  | .private => asText "Z"

/-- The long syntax of a volume. -/
def volume (v : ShortVolume) : Content :=
  match v.options with
  | none => mappingOf [("type", asText "volume"), ("target", .str v.containerPath)]
  | some ⟨.volume name, readOnly, _⟩ =>
    mappingOf [("type", asText "volume"), ("source", .str name), ("target", .str v.containerPath), ("read_only", .bool readOnly)]
  | some ⟨.hostPath path, readOnly, label⟩ =>
    mappingOf [("type", asText "bind"), ("source", .str path), ("target", .str v.containerPath), ("read_only", .bool readOnly),
      ("bind", mappingOf (("create_host_path", .bool true) :: optional "selinux" (label.map selinux)))]

/-- The long syntax of the port at a place in the ranges of a port. -/
def port (E : Env) (p : ShortPort E.ip.Ty) (i : Nat) : Content :=
  mappingOf (("target", .u64 (p.ranges.container.start + i)) ::
    (optional "published" (p.ranges.host.map fun host => .u64 (host.start + i)) ++
      optional "host_ip" (p.hostIp.map fun ip => .str (E.ip.show ip)) ++
      optional "protocol" (p.protocol.map fun
        | .tcp => asText "tcp"
        | .udp => asText "udp"
        | .other s => .str s)))

/-- The long syntax of a port: one for every port of its range. -/
def ports (E : Env) (p : ShortPort E.ip.Ty) : List Content := (List.range (portCount p.ranges.container)).map (port E p)

/-! ### Files without short syntax -/

/-- A list of configs or secrets, all in long syntax. -/
def longConfigs : Content → Content := eachItem (unlessMapping configOrSecret)

/-- A mapping of limits, all in long syntax. -/
def longUlimits : Content → Content := eachValue (unlessMapping ulimit)

/-- A build in long syntax, with secrets and limits in long syntax. -/
def longBuild (v : Content) : Content :=
  atKey "ulimits" longUlimits (atKey "secrets" longConfigs (unlessMapping build v))

/-- Dependencies in long syntax.  An empty list is left. -/
def longDependsOn : Content → Content
  | .seq (name :: names) => dependsOn (name :: names)
  | v => v

/-- Networks in long syntax. -/
def longNetworks : Content → Content
  | .seq names => networks names
  | v => v

/-- Environment files: a list, all in long syntax. -/
def longEnvFile : Content → Content
  | .str path => .seq [envFile (.str path)]
  | v => eachItem (unlessMapping envFile) v

/-- A volume in long syntax. -/
def longVolume (v : Content) : Content :=
  match shortVolume.de v with
  | .ok x => volume x
  | _ => v

/-- Volumes in long syntax. -/
def longVolumes : Content → Content := eachItem longVolume

/-- A port in long syntax, which may take several items. -/
def longPort (E : Env) (v : Content) : List Content :=
  match (shortPort E).de v with
  | .ok x => ports E x
  | _ => [v]

/-- Ports in long syntax. -/
def longPorts (E : Env) : Content → Content
  | .seq vs => .seq (vs.flatMap (longPort E))
  | v => v

/-- Included files in long syntax. -/
def longInclude : Content → Content := eachItem (ifText included)

/-- A service without short syntax. -/
def longService (E : Env) (v : Content) : Content :=
  atKey "build" longBuild <| atKey "configs" longConfigs <| atKey "depends_on" longDependsOn <|
    atKey "env_file" longEnvFile <| atKey "networks" longNetworks <| atKey "ports" (longPorts E) <|
    atKey "secrets" longConfigs <| atKey "ulimits" longUlimits <| atKey "volumes" longVolumes v

/-- A file without short syntax. -/
def longFile (E : Env) (v : Content) : Content :=
  atKey "include" longInclude <| atKey "services" (eachValue (longService E)) v

/-- What is assumed of `==` on the values of extensions. -/
class ValueEqOk (E : Env) : Prop where
  refl : ∀ v, E.valueEq v v = true
  trans : ∀ v w x, E.valueEq v w = true → E.valueEq w x = true → E.valueEq v x = true

/-! ### Changing values -/

/-- The place of a field in a struct. -/
inductive Place (i : Item) : List Item → Type 1
  | here {is : List Item} : Place i (i :: is)
  | there {j : Item} {is : List Item} : Place i is → Place i (j :: is)

/-- The place of a field that is found after a number of other fields. -/
def Place.nth : (n : Nat) → (i : Item) → {is : List Item} → is[n]? = some i → Place i is
  | 0, _, _ :: _, h => Option.some.inj h ▸ .here
  | n + 1, i, _ :: _, h => .there (Place.nth n i h)
  | _, _, [], h => nomatch h

/-- Change one field of a struct. -/
def Place.change {i : Item} (h : i.Ty → i.Ty) : {is : List Item} → Place i is → Record is → Record is
  | _, .here, (x, r) => (h x, r)
  | _, .there p, (x, r) => (x, p.change h r)

/-- Change the field that is found after a number of other fields. -/
def changeAt {is : List Item} (n : Nat) (i : Item) (h : i.Ty → i.Ty) (hi : is[n]? = some i) (r : Record is) : Record is :=
  (Place.nth n i hi).change h r

/-- Make a value long. -/
def long {S L : Type} (f : S → L) (x : ShortOrLong S L) : ShortOrLong S L := .long (x.intoLong f)

/-- Dependencies in long form; no dependencies are left as they are. -/
def longDependencies : Structs.DependsOn → Structs.DependsOn
  | .short [] => .short []
  | d => .long (d.intoMap dependencyDefault)

/-- Networks in long form. -/
def longNetworkMap {E : Env} (n : Structs.Networks E) : Structs.Networks E := .long (n.intoMap none)

/-- Networks in long form, if there are networks. -/
def longNetworkConfig {E : Env} : NetworkConfigOf (Structs.Networks E) → NetworkConfigOf (Structs.Networks E)
  | .networkMode mode => .networkMode mode
  | .networks networks => .networks (longNetworkMap networks)

/-- Environment files as a list in long form. -/
def longEnvFiles (e : EnvFiles) : EnvFiles := .list (e.intoList.map (long envFileConfigOfPath))

/-- Configs or secrets in long form. -/
def longConfigList : List (ShortOrLong Str (Record Structs.configOrSecret)) → List (ShortOrLong Str (Record Structs.configOrSecret)) :=
  List.map (long configOrSecretOfName)

/-- Limits in long form. -/
def longUlimitMap : IndexMap Str (ShortOrLong (Limit Nat) (Record Structs.ulimit)) →
    IndexMap Str (ShortOrLong (Limit Nat) (Record Structs.ulimit)) :=
  List.map fun e => (e.1, long ulimitOfLimit e.2)

/-- Included files in long form. -/
def longIncludes : List (ShortOrLong Str (Record «include»)) → List (ShortOrLong Str (Record «include»)) :=
  List.map (long includeOfPath)

/-- Volumes in long form; of equal ones the first is kept. -/
def longVolumeSet (E : Env) (l : IndexSet (ShortOrLong ShortVolume MountOf)) : IndexSet (ShortOrLong ShortVolume MountOf) :=
  @IndexSet.collectNew _ (volumesEq E) ((volumesOfShort l).map .long)

/-- Ports in long form; of equal ones the first is kept. -/
def longPortSet (E : Env) (l : IndexSet (ShortOrLong (ShortPort E.ip.Ty) (Record (Structs.port E)))) :
    IndexSet (ShortOrLong (ShortPort E.ip.Ty) (Record (Structs.port E))) :=
  @IndexSet.collectNew _ (portsEq E) ((portsIntoLong E l).map .long)

/-- The secrets and limits of a build in long form. -/
def longBuildFields (E : Env) (r : Record (Structs.build E)) : Record (Structs.build E) :=
  changeAt 19 (many "ulimits" ulimits) longUlimitMap rfl <|
  changeAt 17 (many "secrets" (Codecs.list (shortOrLong identifier (struct Structs.configOrSecret)))) longConfigList rfl r

/-- A build in long form. -/
def longBuildValue (E : Env) (b : ShortOrLong Context (Record (Structs.build E))) : ShortOrLong Context (Record (Structs.build E)) :=
  .long (longBuildFields E (b.intoLong (buildOfContext E)))

/-- The settings of a service in long form. -/
noncomputable def longServiceFields (E : Env) (r : Record (Structs.service E)) : Record (Structs.service E) :=
  changeAt 1 (opt "build" (shortOrLong (context E) (struct (Structs.build E)))) (Option.map (longBuildValue E)) rfl <|
  changeAt 17 (many "configs" (Codecs.list (shortOrLong identifier (struct Structs.configOrSecret)))) longConfigList rfl <|
  changeAt 20 Structs.dependsOn longDependencies rfl <|
  changeAt 30 (opt "env_file" Structs.envFile) (Option.map longEnvFiles) rfl <|
  changeAt 48 (networkConfig E) (Option.map longNetworkConfig) rfl <|
  changeAt 59 (many "ports" (Structs.ports E)) (longPortSet E) rfl <|
  changeAt 67 (many "secrets" (Codecs.list (shortOrLong identifier (struct Structs.configOrSecret)))) longConfigList rfl <|
  changeAt 77 (many "ulimits" ulimits) longUlimitMap rfl <|
  changeAt 80 (many "volumes" (Structs.volumes E)) (longVolumeSet E) rfl r

/-- The included files and the settings of the services of a file in long form. -/
noncomputable def longFileFields (E : Env) : Record (compose E) → Record (compose E)
  | (version, name, includes, services, rest) =>
    let services : IndexMap Str (Record (Structs.service E)) := services
    (version, name, longIncludes includes, services.map fun e => (e.1, longServiceFields E e.2), rest)

/-- The mode of a port of a file as in C18. -/
def portModeOf : Structs.PortMode → Compose.PortMode
  | .host => .host
  | .ingress => .ingress

/-- A port of a file as in C18. -/
def portFields (E : Env) : Record (Structs.port E) → Port E.ip.Ty Content
  | (name, target, published, hostIp, protocol, appProtocol, mode, extensions, _) =>
    let mode : Option Structs.PortMode := mode
    ⟨name, target, published, hostIp, protocol, appProtocol, mode.map portModeOf, extensions⟩

/-! ### No short syntax -/

/-- Not the short form. -/
def IsLong {S L : Type} (x : ShortOrLong S L) : Prop := ∃ l, x = .long l

/-- No item is in short form. -/
def ItemsLong {S L : Type} (l : List (ShortOrLong S L)) : Prop := ∀ x ∈ l, IsLong x

/-- No value is in short form. -/
def ValuesLong {S L : Type} (m : List (Str × ShortOrLong S L)) : Prop := ∀ e ∈ m, IsLong e.2

/-- The environment files are a list without short form. -/
def EnvFilesLong (e : EnvFiles) : Prop := ∃ l, e = .list l ∧ ItemsLong l

/-- No setting of the build is in short form. -/
def BuildIsLong (E : Env) (b : ShortOrLong Context (Record (Structs.build E))) : Prop :=
  ∃ r : Record (Structs.build E), b = .long r ∧
    ItemsLong (S := Str) (L := Record Structs.configOrSecret) (Load.rest 17 (Structs.build E) r).1 ∧
    ValuesLong (S := Limit Nat) (L := Record Structs.ulimit) (Load.rest 19 (Structs.build E) r).1

/-- If there is a value, something holds of it. -/
def IfAny {α : Type} (p : α → Prop) (o : Option α) : Prop := ∀ x, o = some x → p x

/-- The networks are not in short form. -/
def NetworksLong {E : Env} (n : NetworkConfigOf (Structs.Networks E)) : Prop := ∀ networks, n = .networks networks → IsLong networks

/-- No dependency is in short form; that there are no dependencies has no long form. -/
def DependenciesLong (d : Structs.DependsOn) : Prop := d = .short [] ∨ IsLong d

/-- No setting of the service is in short form. -/
structure ServiceIsLong (E : Env) (r : Record (Structs.service E)) : Prop where
  build : IfAny (BuildIsLong E) (Load.rest 1 (Structs.service E) r).1
  configs : ItemsLong (S := Str) (L := Record Structs.configOrSecret) (Load.rest 17 (Structs.service E) r).1
  dependsOn : DependenciesLong (Load.rest 20 (Structs.service E) r).1
  envFile : IfAny EnvFilesLong (Load.rest 30 (Structs.service E) r).1
  networks : IfAny (NetworksLong (E := E)) (Load.rest 48 (Structs.service E) r).1
  ports : ItemsLong (S := ShortPort E.ip.Ty) (L := Record (Structs.port E)) (Load.rest 59 (Structs.service E) r).1
  secrets : ItemsLong (S := Str) (L := Record Structs.configOrSecret) (Load.rest 67 (Structs.service E) r).1
  ulimits : ValuesLong (S := Limit Nat) (L := Record Structs.ulimit) (Load.rest 77 (Structs.service E) r).1
  volumes : ItemsLong (S := ShortVolume) (L := MountOf) (Load.rest 80 (Structs.service E) r).1

/-- No included file and no setting of a service is in short form. -/
def FileIsLong (E : Env) : Record (compose E) → Prop
  | (_, _, includes, services, _) =>
    ItemsLong (S := Str) (L := Record «include») includes ∧
      ∀ name s, (name, s) ∈ id (α := List (Str × Record (Structs.service E))) services → ServiceIsLong E s

end Spec.Longhand
