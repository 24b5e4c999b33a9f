import Verif.Model.Structs
import Mathlib.Data.Option.Defs
import Mathlib.Data.List.Forall2

/- When two values count as the same item of a set, and when they are equal: all parts agree; paths agree if they have the same
components, whatever their text (`/a//b/.` is `/a/b`); extensions agree if they have the same keys in the same order with
equal values. -/

namespace Spec
open Rust Compose Compose.Derive

/-- Paths with the same components. -/
def EqualPath (p q : Str) : Prop := Path.components p = Path.components q

/-- SSH authentication with the same id and path. -/
inductive EqualSshAuth : SshAuth → SshAuth → Prop
  | default : EqualSshAuth .default .default
  | id {i j : SshId} : i.id = j.id → EqualPath i.path j.path → EqualSshAuth (.id i) (.id j)

/-- Devices with the same paths and permissions. -/
structure EqualDevice (a b : Device) : Prop where
  host : EqualPath a.hostPath b.hostPath
  container : EqualPath a.containerPath b.containerPath
  permissions : a.permissions = b.permissions

/-- The same host path or the same volume. -/
inductive EqualSource : VolumeSource → VolumeSource → Prop
  | hostPath {p q : Str} : EqualPath p q → EqualSource (.hostPath p) (.hostPath q)
  | volume {n : Str} : EqualSource (.volume n) (.volume n)

/-- Volumes in short syntax with the same container path, source and options. -/
structure EqualShortVolume (a b : ShortVolume) : Prop where
  container : EqualPath a.containerPath b.containerPath
  options : Option.Rel (fun o p => EqualSource o.source p.source ∧ o.readOnly = p.readOnly ∧ o.selinux = p.selinux) a.options b.options

/-- Extensions with the same keys in the same order and equal values. -/
def EqualExtensions (E : Env) (a b : List (Str × Content)) : Prop :=
  List.Forall₂ (fun e f => e.1 = f.1 ∧ E.valueEq e.2 f.2 = true) a b

/-- Both short, or both long, and the same. -/
inductive EqualForm {S L : Type} (short : S → S → Prop) (long : L → L → Prop) : ShortOrLong S L → ShortOrLong S L → Prop
  | short {a b : S} : short a b → EqualForm short long (.short a) (.short b)
  | long {a b : L} : long a b → EqualForm short long (.long a) (.long b)

/-- Ports that agree in every field. -/
inductive EqualPort (E : Env) : Record (Structs.port E) → Record (Structs.port E) → Prop
  | fields {name target published hostIp protocol appProtocol mode} {a b : List (Str × Content)} : EqualExtensions E a b →
    EqualPort E (name, target, published, hostIp, protocol, appProtocol, mode, a, ())
      (name, target, published, hostIp, protocol, appProtocol, mode, b, ())

/-- Fields common to all mounts that agree. -/
inductive EqualCommon (E : Env) : Record Structs.common → Record Structs.common → Prop
  | fields {readOnly consistency} {p q : Str} {a b : List (Str × Content)} : EqualPath p q → EqualExtensions E a b →
    EqualCommon E (p, readOnly, consistency, a, ()) (q, readOnly, consistency, b, ())

/-- Options of volumes that agree. -/
inductive EqualVolumeOptions (E : Env) : Record Structs.volumeOptions → Record Structs.volumeOptions → Prop
  | fields {nocopy} {p q : Option Str} {a b : List (Str × Content)} : Option.Rel EqualPath p q → EqualExtensions E a b →
    EqualVolumeOptions E (nocopy, p, a, ()) (nocopy, q, b, ())

/-- Options of bind mounts that agree. -/
inductive EqualBindOptions (E : Env) : Record Structs.bindOptions → Record Structs.bindOptions → Prop
  | fields {propagation createHostPath selinux} {a b : List (Str × Content)} : EqualExtensions E a b →
    EqualBindOptions E (propagation, createHostPath, selinux, a, ()) (propagation, createHostPath, selinux, b, ())

/-- Options of tmpfs mounts that agree. -/
inductive EqualTmpfsOptions (E : Env) : Record Structs.tmpfsOptions → Record Structs.tmpfsOptions → Prop
  | fields {size mode} {a b : List (Str × Content)} : EqualExtensions E a b →
    EqualTmpfsOptions E (size, mode, a, ()) (size, mode, b, ())

/-- Mounts of the same kind that agree in every field. -/
inductive EqualMount (E : Env) : Structs.MountOf → Structs.MountOf → Prop
  | volume {source} {o p : Option (Record Structs.volumeOptions)} {a b : Record Structs.common} :
    Option.Rel (EqualVolumeOptions E) o p → EqualCommon E a b → EqualMount E (.volume (source, o, a, ())) (.volume (source, p, b, ()))
  | bind {s t : Str} {o p : Option (Record Structs.bindOptions)} {a b : Record Structs.common} :
    EqualPath s t → Option.Rel (EqualBindOptions E) o p → EqualCommon E a b → EqualMount E (.bind (s, o, a, ())) (.bind (t, p, b, ()))
  | tmpfs {o p : Option (Record Structs.tmpfsOptions)} {a b : Record Structs.common} :
    Option.Rel (EqualTmpfsOptions E) o p → EqualCommon E a b → EqualMount E (.tmpfs (o, a, ())) (.tmpfs (p, b, ()))
  | namedPipe {s t : Str} {a b : Record Structs.common} :
    EqualPath s t → EqualCommon E a b → EqualMount E (.namedPipe (s, a, ())) (.namedPipe (t, b, ()))
  | cluster {source} {a b : Record Structs.common} :
    EqualCommon E a b → EqualMount E (.cluster (source, a, ())) (.cluster (source, b, ()))

end Spec
