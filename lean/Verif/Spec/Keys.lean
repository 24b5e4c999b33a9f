import Verif.Spec.Regex

/- Grammars of the validated string types, as documented. -/

namespace Spec
open Rust (Str)
open Re

/-- `[a-zA-Z0-9][a-zA-Z0-9._-]*` -/
def Identifier : Lang := cls alnum ⬝ star (cls (alnum ++ "._-".toList))

/-- `^[a-z0-9][a-z0-9_-]*$` -/
def ProjectName : Lang := cls lowerAlnum ⬝ star (cls (lowerAlnum ++ "_-".toList))

/-- A non-empty single line. -/
def MapKey (s : Str) : Prop := s ≠ [] ∧ '\n' ∉ s

/-- A single line starting with `x-`. -/
def ExtensionKey (s : Str) : Prop := (∃ r, s = "x-".toList ++ r) ∧ '\n' ∉ s

/-- Host name label: `[a-zA-Z0-9]([a-zA-Z0-9-]*[a-zA-Z0-9])?` -/
def HostLabel : Lang := cls alnum ⬝ opt (star (cls (alnum ++ ['-'])) ⬝ cls alnum)

/-- Dot separated labels: `label(.label)*` -/
def Hostname : Lang := HostLabel ⬝ star (lit ['.'] ⬝ HostLabel)

/-- User and group names: `[a-zA-Z0-9_][a-zA-Z0-9_-]*$?` or a lone `$`, at most 32 characters and not all
digits. -/
def UserName (s : Str) : Prop :=
  ((cls (alnum ++ ['_']) ⬝ star (cls (alnum ++ "_-".toList)) ⬝ opt (lit ['$'])) ∣∣ lit ['$']) s ∧
    s.length ≤ 32 ∧ ¬ star (cls digit) s

/-- `[a-z]+` -/
def UlimitResource : Lang := plus (cls lower)

/-- Unicode white space, by code point. -/
def whiteSpace : List Nat :=
  [0x9, 0xA, 0xB, 0xC, 0xD, 0x20, 0x85, 0xA0, 0x1680, 0x2000, 0x2001, 0x2002, 0x2003, 0x2004, 0x2005, 0x2006,
    0x2007, 0x2008, 0x2009, 0x200A, 0x2028, 0x2029, 0x202F, 0x205F, 0x3000]

/-- Non-empty, no white space. -/
def CacheOption (s : Str) : Prop := s ≠ [] ∧ ∀ c ∈ s, c.toNat ∉ whiteSpace

end Spec
