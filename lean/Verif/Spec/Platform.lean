import Verif.Model.Platform
import Mathlib.Data.List.Nodup

/-
What a platform table must satisfy, which texts denote which platforms, and the list of texts of the table the library
uses.
-/

namespace Spec
open Rust Compose

/-- A table whose enums compile and whose names are unambiguous: identifiers and names are distinct within each enum, no
OS or architecture name contains a `/`, and every listed architecture is defined. -/
structure GoodTable (T : PlatformTable) : Prop where
  osIdents : (T.os.map (·.ident)).Nodup
  osNames : (T.os.map (·.name)).Nodup
  archIdents : (T.arch.map (·.ident)).Nodup
  archNames : (T.arch.map (·.name)).Nodup
  variantIdents : ∀ a ∈ T.arch, ((a.variants.getD []).map (·.ident)).Nodup
  variantNames : ∀ a ∈ T.arch, ((a.variants.getD []).map (·.name)).Nodup
  osSlash : ∀ o ∈ T.os, '/' ∉ o.name
  archSlash : ∀ a ∈ T.arch, '/' ∉ a.name
  defined : ∀ o ∈ T.os, ∀ n ∈ o.archs, ∃ a ∈ T.arch, a.name = n

/-- `s` is the text `arch[/variant]` of an architecture value of the table, one of those for which `listed` holds. -/
inductive ArchText (T : PlatformTable) (listed : Str → Prop) : Str → ArchValue → Prop
  | plain {a : ArchItem} : a ∈ T.arch → listed a.name → ArchText T listed a.name ⟨a.ident, none⟩
  | variant {a : ArchItem} {vs : List VariantItem} {v : VariantItem} : a ∈ T.arch → listed a.name →
      a.variants = some vs → v ∈ vs →
      ArchText T listed (a.name ++ '/' :: v.name) ⟨a.ident, some v.ident⟩

/-- `s` is the text `os[/arch[/variant]]` of a platform of the table. -/
inductive PlatformText (T : PlatformTable) : Str → Platform → Prop
  | os {o : OsItem} : o ∈ T.os → PlatformText T o.name ⟨o.ident, none⟩
  | arch {o : OsItem} {s : Str} {a : ArchValue} : o ∈ T.os → ArchText T (· ∈ o.archs) s a →
      PlatformText T (o.name ++ '/' :: s) ⟨o.ident, some a⟩

/-- `p` is a value of the `Platform` enum: its OS exists and its architecture, if any, is listed for that OS and carries
one of its own variants. -/
def IsPlatform (T : PlatformTable) (p : Platform) : Prop :=
  ∃ o ∈ T.os, p.os = o.ident ∧
    ∀ a, p.arch = some a → ∃ i ∈ T.arch, i.name ∈ o.archs ∧ a.ident = i.ident ∧
      ∀ v, a.variant = some v → ∃ vs, i.variants = some vs ∧ ∃ w ∈ vs, v = w.ident

/-- `a` is a value of the `Arch` enum. -/
def IsArch (T : PlatformTable) (a : ArchValue) : Prop :=
  ∃ i ∈ T.arch, a.ident = i.ident ∧ ∀ v, a.variant = some v → ∃ vs, i.variants = some vs ∧ ∃ w ∈ vs, v = w.ident

/-- Every text the library accepts as a platform, written out. -/
def platformTexts : List String := [
  "aix", "aix/ppc64", "android", "android/386", "android/amd64", "android/arm", "android/arm/v6",
  "android/arm/v7", "android/arm/v8", "android/arm64", "android/arm64/v8", "darwin", "darwin/amd64",
  "darwin/arm64", "darwin/arm64/v8", "dragonfly", "dragonfly/amd64", "freebsd", "freebsd/386", "freebsd/amd64",
  "freebsd/arm", "freebsd/arm/v6", "freebsd/arm/v7", "freebsd/arm/v8", "illumos", "illumos/amd64", "ios",
  "ios/arm64", "ios/arm64/v8", "js", "js/wasm", "linux", "linux/386", "linux/amd64", "linux/arm", "linux/arm/v6",
  "linux/arm/v7", "linux/arm/v8", "linux/arm64", "linux/arm64/v8", "linux/loong64", "linux/mips", "linux/mipsle",
  "linux/mips64", "linux/mips64le", "linux/ppc64", "linux/ppc64le", "linux/riscv64", "linux/s390x", "netbsd",
  "netbsd/386", "netbsd/amd64", "netbsd/arm", "netbsd/arm/v6", "netbsd/arm/v7", "netbsd/arm/v8", "openbsd",
  "openbsd/386", "openbsd/amd64", "openbsd/arm", "openbsd/arm/v6", "openbsd/arm/v7", "openbsd/arm/v8",
  "openbsd/arm64", "openbsd/arm64/v8", "plan9", "plan9/386", "plan9/amd64", "plan9/arm", "plan9/arm/v6",
  "plan9/arm/v7", "plan9/arm/v8", "solaris", "solaris/amd64", "wasip1", "wasip1/wasm", "windows", "windows/386",
  "windows/amd64", "windows/arm", "windows/arm/v6", "windows/arm/v7", "windows/arm/v8", "windows/arm64",
  "windows/arm64/v8"]

end Spec
