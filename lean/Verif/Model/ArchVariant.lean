import Verif.Model.Platform

/-
Model of the `{Arch}Variant` enums that the `platforms!` macro generates, of the remaining parts of the `{Os}Arch` enums,
and of the message of `InvalidArchError`.
-/

namespace Compose
open Rust

/-- The names of the variants of an architecture, /repo/compose_spec_macros/src/platforms/arch.rs:244-250; there is an enum
`{Arch}Variant` only if the item has braces, 366-399. -/
def ArchItem.variantArms (item : ArchItem) : List (Str × Str) :=
  (item.variants.getD []).map fun variant => (variant.ident, variant.name)

/-- `{Arch}Variant::as_str` (also `Display`), /repo/compose_spec_macros/src/platforms/arch.rs:387-394, 482-488. -/
def ArchItem.variantAsStr (item : ArchItem) (variant : Str) : Option Str :=
  (item.variantArms.find? (·.1 = variant)).map (·.2)

/-- `{Arch}Variant::from_str`, /repo/compose_spec_macros/src/platforms/arch.rs:490-496, platforms.rs:277-286. -/
def ArchItem.variantFromStr (item : ArchItem) (s : Str) : Except Str Str :=
  armOrError ((item.variantArms.find? (·.2 = s)).map (·.1)) s

/-- `{Os}Arch::OS`, /repo/compose_spec_macros/src/platforms/os.rs:353-354. -/
def OsItem.osConst (os : OsItem) : Str := os.ident

/-- `From<{Os}Arch> for Arch`, /repo/compose_spec_macros/src/platforms/os.rs:377-383 and platforms/arch.rs:349-358: one arm
for every listed architecture, `{Os}Arch::#ident(variant) => Self::#ident(variant)`; `none` if there is no arm. -/
def PlatformTable.archOfOsArch (T : PlatformTable) (os : OsItem) (arch : ArchValue) : Option ArchValue :=
  (os.archs.findSome? fun name => (T.getArch name).bind fun item =>
    if item.ident = arch.ident then some ⟨item.ident, arch.variant⟩ else none)

/-- `Display for InvalidArchError`, /repo/src/service/platform.rs:219-227, with the texts of the architecture and the
operating system. -/
def PlatformTable.invalidArchMessage (T : PlatformTable) (e : ArchValue × Str) : Str :=
  '`' :: (T.archAsStr e.1).getD [] ++ "` is not a valid arch for `".toList ++ (T.osAsStr e.2).getD [] ++ ['`']

end Compose
