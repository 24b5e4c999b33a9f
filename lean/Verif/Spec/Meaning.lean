import Verif.Spec.Derive
import Verif.Spec.Structs
import Verif.Spec.ByteValue
import Verif.Spec.ImageParts
import Verif.Spec.Build
import Verif.Spec.Exclusive
import Verif.Spec.Numbers

/- What the values in a Compose file denote, written without reference to the functions that read them: first for the types
of the fields, then for the structs, as tables of keys with the meaning of their values and of their absence. -/

namespace Spec
open Rust Compose

/-- A value in a file denotes a value of a type. -/
abbrev Meaning (α : Type) := Content → α → Prop

/-- A mapping with these entries, whose keys are strings. -/
def Entries (v : Content) (es : List (Str × Content)) : Prop := v = .map (es.map fun e => (.str e.1, e.2))

namespace Meaning

/-! ### Scalars -/

/-- A string. -/
def string : Meaning Str := fun v s => v = .str s

/-- `true` or `false`. -/
def boolean : Meaning Bool := fun v b => v = .bool b

/-- An integer from 0 to `max`. -/
def natural (max : Nat) : Meaning Nat := fun v n => IsInteger v n ∧ n ≤ max

/-- A string whose text denotes the value. -/
def text {α : Type} (P : Str → α → Prop) : Meaning α := fun v x => ∃ s, v = .str s ∧ P s x

/-- A string that satisfies a condition and denotes itself. -/
def valid (P : Str → Prop) : Meaning Str := fun v s => v = .str s ∧ P s

/-- One of several words. -/
def word {α : Type} (table : List (String × α)) : Meaning α := fun v x => ∃ w, (w, x) ∈ table ∧ v = .str w.toList

/-- A string that another crate reads. -/
def foreign (t : TextType) : Meaning t.Ty := text fun s x => t.parse s = some x

/-- A port number or a text. -/
def portOr {α : Type} (port : Nat → α) (P : Str → α → Prop) : Meaning α := fun v x =>
  (∃ n, natural 65535 v n ∧ x = port n) ∨ text P v x

/-- An id or a name. -/
def idOrName : Meaning IdOrName := fun v x => (∃ n, natural (2 ^ 32 - 1) v n ∧ x = .id n) ∨ text IdOrNameText v x

/-- An integer from 0 to 100. -/
def percent : Meaning Percent := fun v p => natural 100 v p.val

/-- An integer from -1000 to 1000. -/
def oomScoreAdj : Meaning OomScoreAdj := fun v x => IsInteger v x.val ∧ -1000 ≤ x.val ∧ x.val ≤ 1000

/-- An integer from 10 to 1000. -/
def weight : Meaning Weight := fun v w => natural 1000 v w.val ∧ 10 ≤ w.val

/-- A number of CPUs: a floating point number, or the text of one, that is finite and not negative. -/
def cpus (ft : FloatText) : Meaning Cpus := fun v c =>
  (v = .f64 c.val ∨ text (fun s x => ft.parse s = some x) v c.val) ∧
    (∃ q, floatValue c.val = some q ∧ 0 ≤ q) ∧ c.val ≠ negativeZero

/-- A duration: a number of microseconds or a text; null is not a duration. -/
def duration : Meaning (Option Duration) := fun v o => ∃ d, o = some d ∧ DurationValue v d

/-- A number of microseconds, or null for none. -/
def durationUs : Meaning (Option Duration) := fun v o =>
  (v = .unit ∧ o = none) ∨
    ∃ n d, natural (2 ^ 64 - 1) v n ∧ o = some d ∧ d.nanos < 10 ^ 9 ∧ d.secs * 10 ^ 9 + d.nanos = n * 1000

/-- A number of bytes or a text; the number must not be kept as a signed integer. -/
def byteValue : Meaning ByteValue := fun v b => (∃ n, v = .u64 n ∧ b = .bytes n) ∨ text ByteText v b

/-- The number or the text `-1`. -/
def minusOne (v : Content) : Prop := v = .i64 (-1) ∨ v = .str "-1".toList

/-- A number, or -1 for no limit. -/
def limit (max : Nat) : Meaning (Limit Nat) := fun v l =>
  (minusOne v ∧ l = .unlimited) ∨ ∃ n, natural max v n ∧ l = .value n

/-- A number of bytes or a text, or -1 for no limit. -/
def byteLimit : Meaning (Limit ByteValue) := fun v l =>
  (minusOne v ∧ l = .unlimited) ∨ (∃ n : Nat, IsInteger v n ∧ l = .value (.bytes n)) ∨ ∃ b, text ByteText v b ∧ l = .value b

/-- `all` or a number, which may be given as text. -/
def count : Meaning Count := fun v c =>
  (v = .str "all".toList ∧ c = .all) ∨
    ∃ n, (v = .u64 n ∧ n < 2 ^ 64 ∨ text (UInt (2 ^ 64 - 1)) v n) ∧ c = .integer n

/-- A number. -/
inductive NumberValue : Meaning Number
  | unsignedInt {n : Nat} : NumberValue (.u64 n) (.unsignedInt n)
  | signedInt {i : Int} : NumberValue (.i64 i) (.signedInt i)
  | float {x : F64} : NumberValue (.f64 x) (.float x)

/-- A string or a number. -/
def stringOrNumber : Meaning StringOrNumber := fun v x =>
  (∃ s, string v s ∧ x = .string s) ∨ ∃ n, NumberValue v n ∧ x = .number n

/-- A string, a number, `true` or `false`. -/
def value : Meaning Value := fun v x =>
  (∃ s, string v s ∧ x = .string s) ∨ (∃ n, NumberValue v n ∧ x = .number n) ∨ ∃ b, boolean v b ∧ x = .bool b

/-- A list of CPUs. -/
def cpuSet : Meaning (List Nat) :=
  text fun s r => ∃ items, CpuList s items ∧ (∀ i ∈ items, ∃ P, CpuItem i P) ∧
    Increasing r ∧ ∀ x, x ∈ r ↔ ∃ i ∈ items, ∃ P, CpuItem i P ∧ P x

/-- `none`, or the name of a network. -/
inductive BuildNetworkText : Str → BuildNetwork → Prop
  | none : BuildNetworkText "none".toList .none
  | identifier {s : Str} : s ≠ "none".toList → Identifier s → BuildNetworkText s (.identifier s)

/-- A URL, or otherwise a path. -/
inductive ContextText (url : Str → Option Url) : Str → Context → Prop
  | url {s : Str} {u : Url} : url s = some u → ContextText url s (.url u)
  | path {s : Str} : url s = none → ContextText url s (.path s)

/-! ### Collections -/

/-- Null for none. -/
def orNull {α : Type} (m : Meaning α) : Meaning (Option α) := fun v o =>
  (v = .unit ∧ o = none) ∨ ∃ x, v ≠ .unit ∧ m v x ∧ o = some x

/-- A sequence. -/
def items {α : Type} (m : Meaning α) : Meaning (List α) := fun v l => ∃ vs, v = .seq vs ∧ List.Forall₂ m vs l

open Classical in
/-- The items of a list of which none is the same as an earlier one: the first, and then those of what is left if all that
are the same as the first are taken away. -/
noncomputable def firstsBy {α : Type} (same : α → α → Prop) : List α → List α
  | [] => []
  | x :: xs => x :: firstsBy same (xs.filter fun y => ¬ same y x)
  termination_by l => l.length
  decreasing_by
    rw [List.length_unattach]
    exact Nat.lt_succ_of_le ((List.length_filter_le ..).trans (by simp))

/-- A sequence, of which items that are the same count once. -/
def distinctBy {α : Type} (same : α → α → Prop) (m : Meaning α) : Meaning (List α) := fun v l =>
  ∃ all, items m v all ∧ l = firstsBy same all

/-- A sequence, of which repeated items count once. -/
def distinct {α : Type} (m : Meaning α) : Meaning (List α) := distinctBy Eq m

/-- A mapping whose keys satisfy a condition; the last value of a repeated key counts. -/
def entries {α : Type} (K : Str → Prop) (m : Meaning α) : Meaning (List (Str × α)) := fun v l =>
  ∃ es all, Entries v es ∧ List.Forall₂ (fun e a => K e.1 ∧ a.1 = e.1 ∧ m e.2 a.2) es all ∧ Table all l

/-- The long form is a mapping, the short form is not. -/
def shortOrLong {S L : Type} (short : Meaning S) (long : Meaning L) : Meaning (ShortOrLong S L) := fun v x =>
  (∃ y, (∃ es, v = .map es) ∧ long v y ∧ x = .long y) ∨ ∃ y, (¬ ∃ es, v = .map es) ∧ short v y ∧ x = .short y

/-- One item or a sequence of different items. -/
def itemOrList {α : Type} (same : α → α → Prop) (m : Meaning α) : Meaning (ItemOrList α) := fun v x =>
  (∃ l, distinctBy same m v l ∧ x = .list l) ∨
    ∃ y, (¬ ∃ vs, v = .seq vs) ∧ (¬ ∃ es, v = .map es) ∧ v ≠ .unit ∧ m v y ∧ x = .item y

/-- A sequence of strings, or a mapping to values or nulls. -/
def listOrMap : Meaning ListOrMap := fun v x =>
  (∃ l, distinct string v l ∧ x = .list l) ∨ ∃ m, entries MapKey (orNull value) v m ∧ x = .map m

/-- A sequence of `{key}{delimiter}{value}`, or a mapping. -/
def asMap (ft : FloatText) (delimiters : List Char) : Meaning (List (Str × Option Value)) := fun v m =>
  ∃ x, listOrMap v x ∧
    (x = .map m ∨ ∃ l es, x = .list l ∧ List.Forall₂ (ItemEntry ft delimiters) l es ∧ Table es m)

/-- Host names with their addresses. -/
def extraHosts (E : Env) : Meaning (List (Str × E.ip.Ty)) := fun v hosts =>
  ∃ m, asMap E.float ['=', ':'] v m ∧ List.Forall₂ (IsHost E.ip.parse) m hosts

/-- The text of a value. -/
inductive ShownValue (ft : FloatText) : Value → Str → Prop
  | string {s : Str} : ShownValue ft (.string s) s
  | true : ShownValue ft (.bool true) "true".toList
  | false : ShownValue ft (.bool false) "false".toList
  | unsignedInt {n : Nat} : ShownValue ft (.number (.unsignedInt n)) (Nat.toDigits 10 n)
  | natural {n : Nat} : ShownValue ft (.number (.signedInt n)) (Nat.toDigits 10 n)
  | negative {n : Nat} : n ≠ 0 → ShownValue ft (.number (.signedInt (-n))) ('-' :: Nat.toDigits 10 n)
  | float {x : F64} : ShownValue ft (.number (.float x)) (ft.show x)

/-- A name and the context it stands for, `.` if none is given. -/
inductive NamedContext (E : Env) : Str × Option Value → Str × Context → Prop
  | none {k : Str} : NamedContext E (k, none) (k, .path ".".toList)
  | some {k s : Str} {v : Value} {c : Context} : ShownValue E.float v s → ContextText E.url s c →
      NamedContext E (k, some v) (k, c)

/-- Names with their contexts. -/
def additionalContexts (E : Env) : Meaning (List (Str × Context)) := fun v cs =>
  ∃ m, asMap E.float ['='] v m ∧ List.Forall₂ (NamedContext E) m cs

/-- A string or a sequence of strings. -/
def command : Meaning Codecs.Command := fun v x =>
  (∃ s, string v s ∧ x = .string s) ∨ ∃ l, items string v l ∧ x = .list l

/-- A health check. -/
def healthcheck : Meaning Healthcheck := fun v h =>
  ∃ es, Entries v es ∧
    ((h = .disable ∧ (es = [("disable".toList, .bool true)] ∨ es = [("test".toList, noTest)] ∨
        es = [("disable".toList, .bool false), ("test".toList, noTest)])) ∨
      ∃ c, h = .command c ∧ CommandFields es c)

/-- One entry that says where the credentials are, and extensions. -/
def credentialSpec : Meaning CredentialSpec := fun v x =>
  ∃ before e after, Entries v (before ++ e :: after) ∧ KindEntry e x.kind ∧ x.extensions = before ++ after ∧
    (∀ e ∈ before ++ after, ExtensionKey e.1) ∧ ((before ++ after).map (·.1)).Nodup

end Meaning

/-! ### Structs -/

/-- The fields of a struct: a key with the meaning of its value, and the value that is taken if the key is missing (`none`
if it must not be); several keys that make up one value; a value made of the entries whose keys belong to no field. -/
inductive Schema : Type → Type 1
  | nil : Schema Unit
  | field {α β : Type} (key : String) (means : Meaning α) (missing : Option α) (more : Schema β) : Schema (α × β)
  | group {α β : Type} (keys : List String) (means : List (Str × Content) → α → Prop) (more : Schema β) : Schema (α × β)
  | rest {α β : Type} (means : List (Str × Content) → α → Prop) (more : Schema β) : Schema (α × β)

namespace Schema

/-- The keys of the fields. -/
def keys : {α : Type} → Schema α → List Str
  | _, .nil => []
  | _, .field key _ _ more => key.toList :: more.keys
  | _, .group ks _ more => ks.map String.toList ++ more.keys
  | _, .rest _ more => more.keys

/-- The entries denote a struct: every key is given once and its value denotes the value of the field, or it is missing and
the field has the value for that. -/
def Stands (own : List Str) (es : List (Str × Content)) : {α : Type} → Schema α → α → Prop
  | _, .nil, _ => True
  | _, .field key means missing more, (x, r) =>
    ((∃ v, given es key.toList = [v] ∧ means v x) ∨ (given es key.toList = [] ∧ missing = some x)) ∧ more.Stands own es r
  | _, .group _ means more, (x, r) => means es x ∧ more.Stands own es r
  | _, .rest means more, (x, r) => means (es.filter fun e => e.1 ∉ own) x ∧ more.Stands own es r

/-- Every field has a key of its own. -/
def plain : {α : Type} → Schema α → Bool
  | _, .nil => true
  | _, .field _ _ _ more => more.plain
  | _, .group _ _ _ => false
  | _, .rest _ _ => false

/-- The mapping denotes a struct; or the list does, if every field has a key of its own. -/
def Means {α : Type} (s : Schema α) : Meaning α := fun v x => ∃ es, GivenAs (s.plain = true) s.keys v es ∧ s.Stands s.keys es x

/-- A key that must be given. -/
def required {α β : Type} (key : String) (m : Meaning α) (more : Schema β) : Schema (α × β) := .field key m none more

/-- A key that may be missing or null. -/
def optional {α β : Type} (key : String) (m : Meaning α) (more : Schema β) : Schema (Option α × β) :=
  .field key (.orNull m) (some none) more

/-- A key that may be missing. -/
def optional' {α β : Type} (key : String) (m : Meaning (Option α)) (more : Schema β) : Schema (Option α × β) :=
  .field key m (some none) more

/-- `true` or `false`. -/
def flag {β : Type} (key : String) (missing : Bool) (more : Schema β) : Schema (Bool × β) :=
  .field key .boolean (some missing) more

/-- A collection, empty if the key is missing. -/
def many {α β : Type} (key : String) (m : Meaning (List α)) (more : Schema β) : Schema (List α × β) :=
  .field key m (some []) more

/-- A list or map, an empty list if the key is missing. -/
def listOrMap {β : Type} (key : String) (more : Schema β) : Schema (ListOrMap × β) :=
  .field key .listOrMap (some (.list [])) more

/-- At most one of several keys. -/
def atMostOne {α β : Type} (fields : List (Alternative α)) (keys : List String) (more : Schema β) : Schema (Option α × β) :=
  .group keys (fun es o => (NoneOf fields es ∧ o = none) ∨ ∃ x, OneOf fields es x ∧ o = some x) more

/-- Exactly one of several keys. -/
def exactlyOne {α β : Type} (fields : List (Alternative α)) (keys : List String) (more : Schema β) : Schema (α × β) :=
  .group keys (OneOf fields) more

/-- All other keys are extensions; the last value of a repeated one counts. -/
def extensions : Schema (List (Str × Content) × Unit) :=
  .rest (fun es x => (∀ e ∈ es, ExtensionKey e.1) ∧ Table es x) .nil

/-- The other entries denote another struct. -/
def inner {α : Type} (s : Schema α) : Schema (α × Unit) := .rest (fun es x => s.Stands s.keys es x) .nil

end Schema

/-- A resource: external, perhaps with a name; or the struct that the entries other than `external: false` denote, where
the last value of a repeated key counts and the order of the entries is that of a `HashMap`. -/
def resourceMeans {α : Type} (order : List (Str × Content) → List (Str × Content)) (s : Schema α) : Meaning (Resource α) :=
  fun v x => ∃ es, Entries v es ∧
    ((∃ name : Option Str, x = .external name ∧ lastValue es "external".toList = some (.bool true) ∧
        lastValue es "name".toList = name.map .str ∧ ∀ e ∈ es, e.1 = "external".toList ∨ e.1 = "name".toList) ∨
      ∃ rest y, x = .compose y ∧
        (lastValue es "external".toList = none ∨ lastValue es "external".toList = some (.bool false)) ∧
        Table (es.filter (·.1 ≠ "external".toList)) rest ∧ s.Stands s.keys (order rest) y)

end Spec
