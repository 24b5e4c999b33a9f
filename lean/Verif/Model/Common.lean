import Verif.Model.Keys
import Verif.Model.Ports
import Verif.Std.Int
import Verif.Std.IndexMap
import Verif.Std.Content

/-
Model of the common types (`src/common.rs`): `ItemOrList`, `Value`, `Number`, `StringOrNumber`, `ListOrMap`,
`Resource`; of `EnvFile` (`src/service/env_file.rs`) and of the `extra_hosts` fields (`src/service.rs`).
-/

namespace Compose
open Rust

/-! ### ItemOrList -/

/-- `ItemOrList`, /repo/src/common.rs:47-57. -/
inductive ItemOrList (T : Type)
  | item (v : T)
  | list (l : IndexSet T)
  deriving DecidableEq, Repr

namespace ItemOrList

variable {T : Type}

/-- `ItemOrList::as_item`, /repo/src/common.rs:77-83. -/
def asItem : ItemOrList T → Option T
  | .item v => some v
  | .list l => if l.length = 1 then l.head? else none

/-- `ItemOrList::as_list`, /repo/src/common.rs:87-93. -/
def asList : ItemOrList T → Option (IndexSet T)
  | .list l => some l
  | .item _ => none

/-- `ItemOrList::into_list`, /repo/src/common.rs:104-109. -/
def intoList : ItemOrList T → IndexSet T
  | .item v => [v]
  | .list l => l

/-- `Serialize` (untagged), /repo/src/common.rs:47-48; `ser` writes one item. -/
def serialize (ser : T → Content) : ItemOrList T → Content
  | .item v => ser v
  | .list l => .seq (l.map ser)

/-- Read the items of a list (serde's `Vec`/`IndexSet` visitors): stop at the first item that cannot be read. -/
def readAll (de : Content → Option T) : List Content → Option (List T)
  | [] => some []
  | c :: cs => match de c with
    | none => none
    | some x => (readAll de cs).map (x :: ·)

/-- `Deserialize`, /repo/src/common.rs:112-119, with the visitor /repo/src/serde.rs:372-420: a scalar is read as an
item, a sequence as a list of unique items; anything else has no `visit_*` method. -/
def deserialize [DecidableEq T] (de : Content → Option T) : Content → Option (ItemOrList T)
  | .seq items => (readAll de items).map fun l => .list (IndexSet.collect l)
  | .map _ => none
  | .unit => none
  | c => (de c).map .item

end ItemOrList

/-! ### EnvFile -/

/-- `env_file::Config`, /repo/src/service/env_file.rs:90-103. -/
structure EnvFileConfig where
  path : Str
  required : Bool
  deriving DecidableEq, Repr

/-- `AsShort for Config` (derived), /repo/src/service/env_file.rs:90, 95, 102: the path, if it is required
(`skip_true`). -/
def EnvFileConfig.asShort (c : EnvFileConfig) : Option Str := if c.required then some c.path else none

/-- `FromShort for Config` (derived), /repo/src/service/env_file.rs:90, 102 (`default_true`). -/
def EnvFileConfig.fromShort (p : Str) : EnvFileConfig := ⟨p, true⟩

/-- `AsShort for ShortOrLong`, /repo/src/common/short_or_long.rs:137-150. -/
def ShortOrLong.asShort {S L : Type} (f : L → Option S) : ShortOrLong S L → Option S
  | .short s => some s
  | .long l => f l

/-- `From<ShortOrLong<S, L>> for L` (`impl_long_conversion!`), /repo/src/common/short_or_long.rs:274-284. -/
def ShortOrLong.intoLong {S L : Type} (f : S → L) : ShortOrLong S L → L
  | .short s => f s
  | .long l => l

/-- `EnvFile`, /repo/src/service/env_file.rs:19-28. -/
inductive EnvFile
  | single (p : Str)
  | list (l : List (ShortOrLong Str EnvFileConfig))
  deriving DecidableEq

/-- `EnvFile::as_single`, /repo/src/service/env_file.rs:33-39. -/
def EnvFile.asSingle : EnvFile → Option Str
  | .single p => some p
  | .list l => if l.length = 1 then l.head?.bind (ShortOrLong.asShort EnvFileConfig.asShort) else none

/-- `EnvFile::into_list`, /repo/src/service/env_file.rs:45-50. -/
def EnvFile.intoList : EnvFile → List (ShortOrLong Str EnvFileConfig)
  | .single p => [.short p]
  | .list l => l

/-! ### Number and Value -/

/-- How `f64` reads and writes text (std `FromStr` and `Display`), not modelled further. -/
structure FloatText where
  parse : Str → Option F64
  «show» : F64 → Str

/-- `Number`, /repo/src/common.rs:522-535. -/
inductive Number
  | unsignedInt (n : Nat)
  | signedInt (i : Int)
  | float (x : F64)
  deriving DecidableEq, Repr

/-- `ParseNumberError`, /repo/src/common.rs:654-663. -/
inductive ParseNumberError
  | int (e : IntErr)
  | float
  deriving DecidableEq, Repr

/-- `s.strip_prefix(['+', '-']).unwrap_or(s)`, /repo/src/common.rs:631-632. -/
def Number.withoutSign (s : Str) : Str :=
  match s with
  | c :: cs => if c = '+' ∨ c = '-' then cs else s
  | [] => []

/-- `FromStr for Number`, /repo/src/common.rs:627-643. -/
def Number.parse (ft : FloatText) (s : Str) : Except ParseNumberError Number :=
  if (Number.withoutSign s).any (fun c => !isDigit c) then
    match ft.parse s with
    | some x => .ok (.float x)
    | none => .error .float
  else if s.head? = some '-' then
    match parseI64 s with
    | .ok i => .ok (.signedInt i)
    | .error e => .error (.int e)
  else
    match parseUnsigned u64Max s with
    | .ok n => .ok (.unsignedInt n)
    | .error e => .error (.int e)

/-- `Display for Number`, /repo/src/common.rs:665-673. -/
def Number.show (ft : FloatText) : Number → Str
  | .unsignedInt n => showNat n
  | .signedInt i => showInt i
  | .float x => ft.show x

/-- `Serialize for Number` (untagged), /repo/src/common.rs:520-521. -/
def Number.serialize : Number → Content
  | .unsignedInt n => .u64 n
  | .signedInt i => if i < 0 then .i64 i else .u64 i.toNat
  | .float x => .f64 x

/-- `Deserialize for Number`, /repo/src/common.rs:599-607. -/
def Number.deserialize : Content → Option Number
  | .u64 n => some (.unsignedInt n)
  | .i64 i => some (.signedInt i)
  | .f64 x => some (.float x)
  | _ => none

/-- `TryFromNumberError`, /repo/src/common.rs:733-745. -/
inductive TryFromNumberError
  | floatToInt | tryFromInt
  deriving DecidableEq, Repr

/-- `TryFrom<Number> for u64`, /repo/src/common.rs:695-705. -/
def Number.toU64 : Number → Except TryFromNumberError Nat
  | .unsignedInt n => .ok n
  | .signedInt i => if 0 ≤ i then .ok i.toNat else .error .tryFromInt
  | .float _ => .error .floatToInt

/-- `TryFrom<Number> for i64`, /repo/src/common.rs:707-717. -/
def Number.toI64 : Number → Except TryFromNumberError Int
  | .unsignedInt n => if n ≤ i64Max then .ok n else .error .tryFromInt
  | .signedInt i => .ok i
  | .float _ => .error .floatToInt

/-- `TryFrom<Number> for f64`, /repo/src/common.rs:719-729; the only error is `TryFromIntError`. -/
def Number.toF64 : Number → Option F64
  | .unsignedInt n => if n ≤ u32Max then some (F64.ofNat n) else none
  | .signedInt i => if -2147483648 ≤ i ∧ i ≤ 2147483647 then some (F64.ofInt i) else none
  | .float x => some x

/-- `Value`, /repo/src/common.rs:284-296. -/
inductive Value
  | string (s : Str)
  | number (n : Number)
  | bool (b : Bool)
  deriving DecidableEq, Repr

/-- `FromStr for bool` (std). -/
def parseBool (s : Str) : Option Bool :=
  if s = "true".toList then some true else if s = "false".toList then some false else none

/-- `Value::parse`, /repo/src/common.rs:306-315. -/
def Value.parse (ft : FloatText) (s : Str) : Value :=
  match parseBool s with
  | some b => .bool b
  | none =>
    match Number.parse ft s with
    | .ok n => .number n
    | .error _ => .string s

/-- `Display for Value` and `From<Value> for String`, /repo/src/common.rs:378-386, 442-450. -/
def Value.show (ft : FloatText) : Value → Str
  | .string s => s
  | .number n => n.show ft
  | .bool true => "true".toList
  | .bool false => "false".toList

/-- `Serialize for Value` (untagged), /repo/src/common.rs:285-286. -/
def Value.serialize : Value → Content
  | .string s => .str s
  | .number n => n.serialize
  | .bool b => .bool b

/-- `Deserialize for Value`, /repo/src/common.rs:366-376. -/
def Value.deserialize : Content → Option Value
  | .str s => some (.string s)
  | .u64 n => some (.number (.unsignedInt n))
  | .i64 i => some (.number (.signedInt i))
  | .f64 x => some (.number (.float x))
  | .bool b => some (.bool b)
  | _ => none

/-- `TryFrom<Value> for Number`, /repo/src/common.rs:452-462. -/
def Value.toNumber (ft : FloatText) : Value → Except ParseNumberError Number
  | .string s => Number.parse ft s
  | .number n => .ok n
  | .bool b => .ok (.unsignedInt (if b then 1 else 0))

/-- `StringOrNumber`, /repo/src/common.rs:746-754. -/
inductive StringOrNumber
  | string (s : Str)
  | number (n : Number)
  deriving DecidableEq, Repr

/-- `StringOrNumber::parse`, /repo/src/common.rs:761-769. -/
def StringOrNumber.parse (ft : FloatText) (s : Str) : StringOrNumber :=
  match Number.parse ft s with
  | .ok n => .number n
  | .error _ => .string s

/-- `Display for StringOrNumber`, /repo/src/common.rs:863-870. -/
def StringOrNumber.show (ft : FloatText) : StringOrNumber → Str
  | .string s => s
  | .number n => n.show ft

/-! ### ListOrMap -/

/-- `Map`, /repo/src/common.rs:154. -/
abbrev OptionMap := IndexMap Str (Option Value)

/-- `ListOrMap`, /repo/src/common.rs:143-151. -/
inductive ListOrMap
  | list (l : IndexSet Str)
  | map (m : OptionMap)
  deriving DecidableEq, Repr

/-- The closure in `into_list`, /repo/src/common.rs:199-205. -/
def ListOrMap.itemText (ft : FloatText) : Str × Option Value → Str
  | (key, some value) => key ++ '=' :: value.show ft
  | (key, none) => key

/-- `ListOrMap::into_list`, /repo/src/common.rs:194-208. -/
def ListOrMap.intoList (ft : FloatText) : ListOrMap → IndexSet Str
  | .list l => l
  | .map m => IndexSet.collect (m.map (itemText ft))

/-- Key and value text of an item, /repo/src/common.rs:239-241. -/
def ListOrMap.splitItem (delimiters : List Char) (item : Str) : Str × Option Str :=
  match splitOnceAny delimiters item with
  | some (key, value) => (key, some value)
  | none => (item, none)

/-- `value.filter(|value| !value.is_empty()).map(Value::parse)`, /repo/src/common.rs:244. -/
def ListOrMap.itemValue (ft : FloatText) : Option Str → Option Value
  | some v => if v = [] then none else some (Value.parse ft v)
  | none => none

/-- The closure in `into_map_split_on`, /repo/src/common.rs:238-246. -/
def ListOrMap.itemEntry (ft : FloatText) (delimiters : List Char) (item : Str) :
    Except MapKeyError (Str × Option Value) :=
  match mapKeyNew (splitItem delimiters item).1 with
  | .error e => .error e
  | .ok key => .ok (key, itemValue ft (splitItem delimiters item).2)

/-- `collect` into a `Result`: stop at the first error. -/
def collectResult {A B E : Type} (f : A → Except E B) : List A → Except E (List B)
  | [] => .ok []
  | a :: as =>
    match f a with
    | .error e => .error e
    | .ok b =>
      match collectResult f as with
      | .error e => .error e
      | .ok bs => .ok (b :: bs)

/-- `ListOrMap::into_map_split_on`, /repo/src/common.rs:234-250. -/
def ListOrMap.intoMapSplitOn (ft : FloatText) (delimiters : List Char) : ListOrMap → Except MapKeyError OptionMap
  | .list l =>
    match collectResult (itemEntry ft delimiters) l with
    | .error e => .error e
    | .ok entries => .ok (IndexMap.collect entries)
  | .map m => .ok m

/-- `ListOrMap::into_map`, /repo/src/common.rs:221-223. -/
def ListOrMap.intoMap (ft : FloatText) (x : ListOrMap) : Except MapKeyError OptionMap := x.intoMapSplitOn ft ['=']

/-! ### extra_hosts -/

/-- Why the closure in `extra_hosts` fails. -/
inductive ExtraHostError
  | mapKey (e : MapKeyError)
  | notString
  | hostname (e : HostnameError)
  | ip
  deriving DecidableEq, Repr

/-- The closure in `extra_hosts`, /repo/src/service.rs:1068-1078; `parseIp` is `IpAddr::from_str`. -/
def extraHost {Ip : Type} (parseIp : Str → Option Ip) : Str × Option Value → Except ExtraHostError (Str × Ip)
  | (key, some (.string value)) =>
    match hostnameNew key with
    | .error e => .error (.hostname e)
    | .ok host =>
      match parseIp (stripBrackets value) with
      | none => .error .ip
      | some ip => .ok (host, ip)
  | (_, _) => .error .notString

/-- `extra_hosts`, /repo/src/service.rs:1059-1080, after `ListOrMap::deserialize`. -/
def extraHosts {Ip : Type} (ft : FloatText) (parseIp : Str → Option Ip) (x : ListOrMap) :
    Except ExtraHostError (IndexMap Str Ip) :=
  match x.intoMapSplitOn ft ['=', ':'] with
  | .error e => .error (.mapKey e)
  | .ok m =>
    match collectResult (extraHost parseIp) m with
    | .error e => .error e
    | .ok hosts => .ok (IndexMap.collect hosts)

/-! ### Resource -/

/-- `Resource`, /repo/src/common.rs:885-902. -/
inductive Resource (T : Type)
  | external (name : Option Str)
  | compose (t : T)
  deriving DecidableEq, Repr

/-- `Serialize for Resource`, /repo/src/common.rs:950-964. -/
def Resource.serialize {T : Type} (ser : T → Content) : Resource T → Content
  | .external none => .map [(.str "external".toList, .bool true)]
  | .external (some name) => .map [(.str "external".toList, .bool true), (.str "name".toList, .str name)]
  | .compose t => ser t

/-- Entries whose keys are all strings. -/
def stringKeys : List (Content × Content) → Option (List (Str × Content))
  | [] => some []
  | (.str k, v) :: es => (stringKeys es).map ((k, v) :: ·)
  | _ :: _ => none

/-- `HashMap::<String, YamlValue>::deserialize`, /repo/src/common.rs:968: the keys must be strings; the last value of a
repeated key stays. -/
def Resource.readMap : Content → Option (IndexMap Str Content)
  | .map entries => (stringKeys entries).map IndexMap.collect
  | _ => none

/-- The rest of `Deserialize`, /repo/src/common.rs:970-995, on the entries of the map.  A `HashMap` iterates in some
order: `order` rearranges the entries handed to the inner type. -/
def Resource.fromMap {T : Type} (order : IndexMap Str Content → List (Str × Content))
    (de : List (Str × Content) → Option T) (map : IndexMap Str Content) : Option (Resource T) :=
  let rest := map.filter (·.1 ≠ "external".toList)
  match IndexMap.get map "external".toList with
  | some (.bool true) =>
    let rest' := rest.filter (·.1 ≠ "name".toList)
    match IndexMap.get rest "name".toList with
    | none => if rest' = [] then some (.external none) else none
    | some (.str name) => if rest' = [] then some (.external (some name)) else none
    | some _ => none
  | some (.bool false) => (de (order rest)).map .compose
  | some _ => none
  | none => (de (order rest)).map .compose

/-- `Deserialize for Resource`, /repo/src/common.rs:966-997. -/
def Resource.deserialize {T : Type} (order : IndexMap Str Content → List (Str × Content))
    (de : List (Str × Content) → Option T) (c : Content) : Option (Resource T) :=
  (readMap c).bind (fromMap order de)

end Compose
