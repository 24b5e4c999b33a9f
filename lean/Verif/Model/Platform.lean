import Verif.Std.Str

/-
Model of the `platforms!` macro (`compose_spec_macros/src/platforms.rs`, `platforms/os.rs`, `platforms/arch.rs`) as a
function from its input table to the match arms it generates, and of its one use in `src/service/platform.rs`.

An enum variant is represented by its identifier.  A generated `match` tries its arms in order.
-/

namespace Compose
open Rust

/-- `Variant`, /repo/compose_spec_macros/src/platforms/arch.rs:452-457: `#ident => #name`. -/
structure VariantItem where
  ident : Str
  name : Str
  deriving DecidableEq, Repr

/-- `Item`, /repo/compose_spec_macros/src/platforms/arch.rs:220-229: `#ident => #name { variants: [..] }`; `none`
when the braces are missing. -/
structure ArchItem where
  ident : Str
  name : Str
  variants : Option (List VariantItem)
  deriving DecidableEq, Repr

/-- `Item`, /repo/compose_spec_macros/src/platforms/os.rs:201-210: `#ident => #name { arch: [..] }`. -/
structure OsItem where
  ident : Str
  name : Str
  archs : List Str
  deriving DecidableEq, Repr

/-- `Input`, /repo/compose_spec_macros/src/platforms.rs:36-43, without attributes and error types. -/
structure PlatformTable where
  os : List OsItem
  arch : List ArchItem
  deriving Repr

/-- A value of the generated `Arch` and `{Os}Arch` enums: the variant and, for those that carry one, its
`Option<{Arch}Variant>`. -/
structure ArchValue where
  ident : Str
  variant : Option Str
  deriving DecidableEq, Repr

/-- A value of the generated `Platform` enum. -/
structure Platform where
  os : Str
  arch : Option ArchValue
  deriving DecidableEq, Repr

/-- `concat`, /repo/compose_spec_macros/src/platforms.rs:300-319, for two strings and the separator `/`. -/
def slash (a b : Str) : Str := a ++ '/' :: b

/-- `Item::str_arms`, /repo/compose_spec_macros/src/platforms/arch.rs:311-336: values and their strings. -/
def ArchItem.strArms (item : ArchItem) : List (ArchValue × Str) :=
  match item.variants with
  | some variants =>
    (⟨item.ident, none⟩, item.name) ::
      variants.map fun variant => (⟨item.ident, some variant.ident⟩, slash item.name variant.name)
  | none => [(⟨item.ident, none⟩, item.name)]

/-- `Map::get`, /repo/compose_spec_macros/src/platforms/arch.rs:167-170, on the map made by `Arch::to_map`, 62-68 (a
later item replaces an earlier one of the same name).  `none` is the compile error `undefined arch`, 77-87 of the same function. -/
def PlatformTable.getArch (T : PlatformTable) (name : Str) : Option ArchItem :=
  T.arch.reverse.find? (·.name = name)

/-- `Item::platform_as_str_arms`, /repo/compose_spec_macros/src/platforms/os.rs:246-258, 446-458 and
platforms/arch.rs:252-263: the arms of `Platform::as_str` for one OS. -/
def PlatformTable.osAsStrArms (T : PlatformTable) (os : OsItem) : List (Platform × Str) :=
  (⟨os.ident, none⟩, os.name) ::
    os.archs.flatMap fun name =>
      match T.getArch name with
      | some item => item.strArms.map fun arm => (⟨os.ident, some arm.1⟩, slash os.name arm.2)
      | none => []

/-- `Item::platform_from_str_arms`, /repo/compose_spec_macros/src/platforms/os.rs:272-285, 460-472 and
platforms/arch.rs:265-277: the arms of `Platform::from_str` for one OS. -/
def PlatformTable.osFromStrArms (T : PlatformTable) (os : OsItem) : List (Str × Platform) :=
  (os.name, ⟨os.ident, none⟩) ::
    os.archs.flatMap fun name =>
      match T.getArch name with
      | some item => item.strArms.map fun arm => (slash os.name arm.2, ⟨os.ident, some arm.1⟩)
      | none => []

/-- All arms of `Platform::as_str`, /repo/compose_spec_macros/src/platforms/os.rs:90-93. -/
def PlatformTable.asStrArms (T : PlatformTable) : List (Platform × Str) := T.os.flatMap T.osAsStrArms

/-- All arms of `Platform::from_str`, /repo/compose_spec_macros/src/platforms/os.rs:96-99. -/
def PlatformTable.fromStrArms (T : PlatformTable) : List (Str × Platform) := T.os.flatMap T.osFromStrArms

/-- The end of a generated `from_str`, /repo/compose_spec_macros/src/platforms.rs:281-284: the value of the matching arm,
or `s => Err(ParseError(s.to_owned()))`. -/
def armOrError {α : Type} (arm : Option α) (s : Str) : Except Str α :=
  match arm with
  | some value => .ok value
  | none => .error s

/-- `Platform::as_str` (also `Display`), /repo/compose_spec_macros/src/platforms/os.rs:122-127; `none` if `p` is not a
value of the enum. -/
def PlatformTable.asStr (T : PlatformTable) (p : Platform) : Option Str :=
  (T.asStrArms.find? (·.1 = p)).map (·.2)

/-- `Platform::from_str`, /repo/compose_spec_macros/src/platforms.rs:277-286; the error is the rejected text. -/
def PlatformTable.fromStr (T : PlatformTable) (s : Str) : Except Str Platform :=
  armOrError ((T.fromStrArms.find? (·.1 = s)).map (·.2)) s

/-- `Os::as_str`, /repo/compose_spec_macros/src/platforms/os.rs:188-193, 303-308. -/
def PlatformTable.osAsStr (T : PlatformTable) (os : Str) : Option Str :=
  ((T.os.map fun item => (item.ident, item.name)).find? (·.1 = os)).map (·.2)

/-- `Os::from_str`, /repo/compose_spec_macros/src/platforms/os.rs:310-315, platforms.rs:277-286. -/
def PlatformTable.osFromStr (T : PlatformTable) (s : Str) : Except Str Str :=
  armOrError (((T.os.map fun item => (item.ident, item.name)).find? (·.2 = s)).map (·.1)) s

/-- `Arch::as_str`, /repo/compose_spec_macros/src/platforms/arch.rs:140-145, 297-300. -/
def PlatformTable.archAsStr (T : PlatformTable) (a : ArchValue) : Option Str :=
  ((T.arch.flatMap ArchItem.strArms).find? (·.1 = a)).map (·.2)

/-- `Arch::from_str`, /repo/compose_spec_macros/src/platforms/arch.rs:302-309, platforms.rs:277-286. -/
def PlatformTable.archFromStr (T : PlatformTable) (s : Str) : Except Str ArchValue :=
  armOrError (((T.arch.flatMap ArchItem.strArms).find? (·.2 = s)).map (·.1)) s

/-- `Platform::os`, /repo/compose_spec_macros/src/platforms/os.rs:260-264: `Self::#os(_) => Os::#os`. -/
def Platform.getOs (p : Platform) : Str := p.os

/-- `Platform::arch`, /repo/compose_spec_macros/src/platforms/os.rs:266-270, with `From<{Os}Arch> for Arch`,
platforms/arch.rs:349-358: the same variant of `Arch`. -/
def Platform.getArch (p : Platform) : Option ArchValue := p.arch

/-- `From<Os> for Platform`, /repo/compose_spec_macros/src/platforms/os.rs:287-291: `#os::#variant =>
Self::#variant(None)`. -/
def Platform.ofOs (os : Str) : Platform := ⟨os, none⟩

/-- The arms of `{Os}Arch::as_str` and `{Os}Arch::from_str`,
/repo/compose_spec_macros/src/platforms/os.rs:484-502. -/
def PlatformTable.osArchArms (T : PlatformTable) (os : OsItem) : List (ArchValue × Str) :=
  os.archs.flatMap fun name =>
    match T.getArch name with
    | some item => item.strArms
    | none => []

/-- `{Os}Arch::as_str`, /repo/compose_spec_macros/src/platforms/os.rs:356-361. -/
def PlatformTable.osArchAsStr (T : PlatformTable) (os : OsItem) (a : ArchValue) : Option Str :=
  ((T.osArchArms os).find? (·.1 = a)).map (·.2)

/-- `{Os}Arch::from_str`, /repo/compose_spec_macros/src/platforms.rs:277-286. -/
def PlatformTable.osArchFromStr (T : PlatformTable) (os : OsItem) (s : Str) : Except Str ArchValue :=
  armOrError (((T.osArchArms os).find? (·.2 = s)).map (·.1)) s

/-- `TryFrom<Arch> for {Os}Arch`, /repo/compose_spec_macros/src/platforms/os.rs:366-375 and platforms/arch.rs:338-347:
one arm for every listed architecture, `Arch::#ident(variant) => Ok(Self::#ident(variant))`; otherwise
`InvalidArchError { arch, os }`. -/
def PlatformTable.tryFromArch (T : PlatformTable) (os : OsItem) (arch : ArchValue) :
    Except (ArchValue × Str) ArchValue :=
  if os.archs.any fun name => (T.getArch name).any (·.ident = arch.ident) then .ok arch
  else .error (arch, os.ident)

/-- An OS with its architectures, for the table. -/
def osItem (ident name : String) (archs : List String) : OsItem := ⟨ident.toList, name.toList, archs.map String.toList⟩

/-- An architecture without variants, for the table. -/
def archItem (ident name : String) : ArchItem := ⟨ident.toList, name.toList, none⟩

/-- An architecture with variants, for the table. -/
def archVariants (ident name : String) (variants : List (String × String)) : ArchItem :=
  ⟨ident.toList, name.toList, some (variants.map fun v => ⟨v.1.toList, v.2.toList⟩)⟩

/-- The table, /repo/src/service/platform.rs:37-208. -/
def platforms : PlatformTable where
  os := [
    osItem "Aix" "aix" ["ppc64"],
    osItem "Android" "android" ["386", "amd64", "arm", "arm64"],
    osItem "Darwin" "darwin" ["amd64", "arm64"],
    osItem "DragonFly" "dragonfly" ["amd64"],
    osItem "FreeBsd" "freebsd" ["386", "amd64", "arm"],
    osItem "Illumos" "illumos" ["amd64"],
    osItem "IOs" "ios" ["arm64"],
    osItem "Js" "js" ["wasm"],
    osItem "Linux" "linux" ["386", "amd64", "arm", "arm64", "loong64", "mips", "mipsle", "mips64", "mips64le", "ppc64",
      "ppc64le", "riscv64", "s390x"],
    osItem "NetBsd" "netbsd" ["386", "amd64", "arm"],
    osItem "OpenBsd" "openbsd" ["386", "amd64", "arm", "arm64"],
    osItem "Plan9" "plan9" ["386", "amd64", "arm"],
    osItem "Solaris" "solaris" ["amd64"],
    osItem "WasiP1" "wasip1" ["wasm"],
    osItem "Windows" "windows" ["386", "amd64", "arm", "arm64"]]
  arch := [
    archItem "_386" "386",
    archItem "Amd64" "amd64",
    archVariants "Arm" "arm" [("V6", "v6"), ("V7", "v7"), ("V8", "v8")],
    archVariants "Arm64" "arm64" [("V8", "v8")],
    archItem "Loong64" "loong64",
    archItem "Mips" "mips",
    archItem "MipsLe" "mipsle",
    archItem "Mips64" "mips64",
    archItem "Mips64Le" "mips64le",
    archItem "Ppc64" "ppc64",
    archItem "Ppc64Le" "ppc64le",
    archItem "RiscV64" "riscv64",
    archItem "S390x" "s390x",
    archItem "Wasm" "wasm"]

end Compose
