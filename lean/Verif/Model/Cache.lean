import Verif.Model.Image
import Verif.Model.Keys
import Verif.Model.Common

/- Model of `src/service/build/cache.rs`. -/

namespace Compose
open Rust

/-- `CacheType`, /repo/src/service/build/cache.rs:219-225.  `CacheOption`s are modelled by their text. -/
inductive CacheType
  | registry (image : Image)
  | other (option : Str)
  deriving DecidableEq, Repr

/-- `Cache`, /repo/src/service/build/cache.rs:24-29. -/
structure Cache where
  cacheType : CacheType
  options : IndexMap Str Str
  deriving DecidableEq, Repr

/-- `ParseCacheError`, /repo/src/service/build/cache.rs:155-172. -/
inductive ParseCacheError
  | image (e : Image.ImageError)
  | typeFirst
  | cacheOption (e : CacheOptionError)
  | missingRef
  deriving DecidableEq, Repr

namespace Cache

/-- `option.split_once('=').unwrap_or((option, ""))`, /repo/src/service/build/cache.rs:70. -/
def splitOption (option : Str) : Str × Str :=
  match splitOnce '=' option with
  | some kv => kv
  | none => (option, [])

/-- The closure reading an option, /repo/src/service/build/cache.rs:69-72. -/
def parseOption (option : Str) : Except ParseCacheError (Str × Str) :=
  match cacheOptionNew (splitOption option).1 with
  | .error e => .error (.cacheOption e)
  | .ok key =>
    match cacheOptionNew (splitOption option).2 with
    | .error e => .error (.cacheOption e)
    | .ok value => .ok (key, value)

/-- The end of `parse_str`, /repo/src/service/build/cache.rs:75-88. -/
def withType (cacheType : Str) (options : IndexMap Str Str) : Except ParseCacheError Cache :=
  if cacheType = "registry".toList then
    match IndexMap.shiftRemove options "ref".toList with
    | none => .error .missingRef
    | some (r, options) =>
      match Image.parse r with
      | .error e => .error (.image e)
      | .ok image => .ok ⟨.registry image, options⟩
  else
    match cacheOptionNew cacheType with
    | .error e => .error (.cacheOption e)
    | .ok other => .ok ⟨.other other, options⟩

/-- `Cache::parse_str` after `split(',')`, /repo/src/service/build/cache.rs:57-89. -/
def parseParts : List Str → Except ParseCacheError Cache
  | [] => .error .typeFirst
  | first :: options =>
    match stripPrefix "type=".toList first with
    | none => .error .typeFirst
    | some cacheType =>
      match collectResult parseOption options with
      | .error e => .error e
      | .ok entries => withType cacheType (IndexMap.collect entries)

/-- `Cache::from_image`, /repo/src/service/build/cache.rs:117-119. -/
def fromImage (image : Image) : Cache := ⟨.registry image, []⟩

/-- `Cache::parse`, /repo/src/service/build/cache.rs:43-54. -/
def parse (cache : Str) : Except ParseCacheError Cache :=
  if ',' ∈ cache then parseParts (split ',' cache)
  else match Image.parse cache with
    | .error e => .error (.image e)
    | .ok image => .ok (fromImage image)

/-- `Cache::into_options`, /repo/src/service/build/cache.rs:125-149. -/
def intoOptions (c : Cache) : IndexMap Str Str :=
  match c.cacheType with
  | .registry image =>
    IndexMap.shiftInsertFront (IndexMap.shiftInsertFront c.options "ref".toList image.asStr)
      "type".toList "registry".toList
  | .other t => IndexMap.shiftInsertFront c.options "type".toList t

/-- `Display for CacheType`, /repo/src/service/build/cache.rs:275-282. -/
def showType : CacheType → Str
  | .registry image => "type=registry,ref=".toList ++ image.asStr
  | .other t => "type=".toList ++ t

/-- The loop of `Display`, /repo/src/service/build/cache.rs:204-206. -/
def showOptions : IndexMap Str Str → Str
  | [] => []
  | (k, v) :: options => ",".toList ++ k ++ "=".toList ++ v ++ showOptions options

/-- `Display for Cache`, /repo/src/service/build/cache.rs:189-210. -/
def «show» (c : Cache) : Str :=
  match c.options, c.cacheType with
  | [], .registry image => image.asStr
  | options, cacheType => showType cacheType ++ showOptions options

end Cache
end Compose
