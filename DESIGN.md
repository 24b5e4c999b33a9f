# Formal model of compose_spec_rs in Lean 4

Source: `/repo` (Rust, read as text only).  Model, specifications and proofs: `/verif/lean`.
Properties: `properties.jsonl`.  Claim table: `MANIFEST.json`.  Mutation log: `seeded/LOG.jsonl`.

## 1. Layout

| directory | content |
|---|---|
| `Verif/Std/` | model of the pieces of the Rust standard library the code calls (string search and splitting, integer parsing and printing), with lemmas |
| `Verif/Model/` | the code of `/repo`, function by function; each definition cites file and lines |
| `Verif/Spec/` | small independent specifications (grammars, meanings), no reference to the model's helpers |
| `Verif/Proofs/` | helper lemmas |
| `Verif/Props/` | the property theorems, named `C01_…`, each with `example`s that meet its hypotheses |

## 2. Modelling conventions

* A Rust `String`/`&str` is a `List Char` (`Str`).  Byte positions (images) are modelled as UTF-8 byte
  positions: slicing at a position past the end or inside a character is a panic (`Std/Bytes`);
  elsewhere splits are at characters.
* `Result<T, E>` is `Except E T`; `Option` is `Option`.  Error payloads are kept when the caller can see
  them, dropped only where the comment says so.
* A path that panics (`expect`, slice out of range, arithmetic overflow in debug builds) is an explicit
  value `panic` of an outcome type; it is never merged with an error.
* `&mut self` methods are functions from the old value to the new value (and the returned value).
* Loops are structural recursion or folds over the same sequence in the same order.
* Machine integers are `Nat`/`Int` with the bound written where the code checks it, or `BitVec`/`Fin`
  where wrapping is observable.
* `IndexMap`/`IndexSet` are association lists/lists in insertion order; `HashMap`/`HashSet` are functions
  or lists used only through membership.
* serde: a value handed to `Deserialize` is an abstract data tree or an explicit list of (key, value)
  entries delivered to the visitor in document order.  YAML text parsing is not modelled.

## 3. Trusted base

* Lean 4.33.0 kernel; axioms at most `propext`, `Classical.choice`, `Quot.sound` (checked with
  `#print axioms` for every property theorem; list in section 6).
* The hand translation from Rust to Lean (cited line by line) and the `Std` model of `str::find`,
  `split_once`, `rsplit_once`, `split`, `strip_prefix`, integer `FromStr`/`Display`.
* Assumed external behaviour, always as theorem parameters and never as axioms: print/parse round trip of
  `IpAddr` (proved for a model of the standard library in C102) and of `IpNet`; `Url` parsing; `f64` printing/parsing (modelled and proved in C106); `Path` operations as documented by std on Unix.

* The model of the code that serde derives for structs with named fields, flattened fields, enums without data and the
  internally tagged `Mount` (`Model/Derive`, `Model/Structs`): written from memory of serde's documented behaviour, since serde is
  not part of `/repo`.
* Everything else outside `/repo` that is modelled: neither the source code nor the documentation of the Rust standard
  library, serde, serde_yaml or any other crate was available while this was written, and nothing could be run.  All models
  of them (all of `Std`, `Model/Derive`, `Model/Visitors`, `Model/Hash`) are written from memory and were not compared with
  the real code.  In particular `Std/Net` (C102), `Std/Decimal` (C106), `Std/Exponent` (C111) and `Std/Merge` (C113) follow
  algorithms of the libraries in detail.  A theorem that depends on them says something about the program only if the
  memory is right; this goes for the claims about defects too, above all for `C113_complete_false`, which is about
  serde_yaml alone.

Not modelled: YAML text (serde_yaml), the messages of serde and serde_yaml (those of the error types of the crate are in C49, C81, C84 and C93), `Debug` impls, `Hash` impls other than those of C78, performance, Windows paths, and allocation: in the model `CpuSet::from_str("0-18446744073709551615")` and the ports of a range are values like any other, while the code would run out of memory on the former.

## 4. Plan per property

| id | property | modelled and proved how |
|---|---|---|
| C01 | Identifier accepts exactly its grammar | `Identifier::new` as a fold over the characters; acceptance iff a declarative regular grammar predicate; full three-way characterisation of the error. |
| C02 | Project name accepts exactly its grammar | as C01 for `Name::new`. |
| C03 | Map and extension keys are exactly the documented single-line keys | as C01 for `MapKey::new`, `ExtensionKey::new`. |
| C04 | Hostname accepts exactly RFC 1123 dotted labels | `Hostname::new` over `split('.')`; spec: exists a list of good labels whose dot-join is the string. |
| C05 | User and group names accept exactly their grammar | `user::Name::new` as written (per-character checks with index, then whole-string checks); spec predicate; iff. |
| C06 | Short validated strings accept exactly their grammar | direct models; iff with predicates. |
| C07 | Duration print/parse round trip | `to_string` and `parse` over seconds+nanoseconds; round trip by showing each printed segment is consumed as one term. |
| C08 | Duration parsing computes the sum of its terms | spec: list of (number, unit) terms rendered and summed; parse of the rendering = checked sum; conversely success implies such a term list exists. |
| C09 | Duration parsing never panics | model has an explicit panic outcome; expected false for digit runs above u64::MAX: negation with witness and the exact set of panicking strings. |
| C10 | Byte values round trip through text | model from_str/Display; round trip by decimal lemmas; acceptance iff spec. |
| C11 | Byte values convert to bytes exactly or not at all | arithmetic; iff with the u64 bound. |
| C12 | Limits round trip and -1 means unlimited | generic over the inner type's round trip. |
| C13 | Port ranges keep start <= end and round trip | u16 arithmetic; round trip for all numbers that fit. |
| C14 | Parsing a port range validates it | expected false (`from_str` does not check): negation + partial theorem on what is guaranteed; the texts of pairs of ranges and of short ports that panic are characterised exactly. |
| C15 | Host and container ranges of a ShortRanges always have equal size | invariant by induction over operation lists. |
| C16 | ShortRanges round trip and pair ports one to one | round trip, iterator as list equality with a map over `List.range`; the values that read back are exactly the well-formed ones, and all that were read are such. |
| C17 | Short port syntax round trips | round trip with IP print/parse as parameters (hypotheses on brackets/colons/digits); exact as C16. |
| C18 | A short port expands to one long port per published port | list equality with a map over `List.range`. |
| C19 | Long to short port conversion loses nothing | case analysis on fields. |
| C20 | Converting a port list to short or long form keeps every port | list lemmas (`flatMap`, `map`). |
| C21 | Transport protocols round trip | case analysis; string equality. |
| C22 | Expose entries round trip | round trip; exact as C16. |
| C23 | Network validation is sound, complete and names the culprit | spec: exists missing reference; iff; first-error characterised by prefix decomposition. |
| C24 | Config and secret validation is sound, complete and names the culprit | as C23. |
| C25 | Volume validation flags exactly undeclared shared volumes | loop with seen map as fold; invariant: seen = names so far, flag = checked; iff with multiplicity spec. |
| C26 | A volume used by one service only is never required at top level | expected false when one service mounts the same volume twice: negation + partial. |
| C27 | validate_all is the conjunction of the four checks in order | case analysis. |
| C28 | Image name parts follow the OCI grammar | `validate_part` state machine refined against the declarative grammar; induction over the characters. |
| C29 | Image tags and digests accept exactly their grammars | state machine for the algorithm; iff. |
| C30 | A parsed image decomposes into exactly its parts | `Image` as text plus cached offsets; representation invariant after parse; getters computed from it. |
| C31 | Image text reassembles | converse of C30. |
| C32 | Editing an image keeps its parts consistent | invariant by induction over edit lists. |
| C33 | Image::from_parts agrees with parsing | expected false (offset computed after pushing): negation + the exact wrong value. |
| C34 | Editing the registry of an image is safe | expected false in corner cases: negations + partial with exact guard. |
| C35 | Volume sources classify by their first characters | case analysis on first characters. |
| C36 | Absolute and host paths stay absolute / relative-marked | path component model; invariant over operation lists. |
| C37 | Short volume syntax round trips | round trip with ':' side conditions; counterexample without. |
| C38 | Short volumes expand faithfully | case analysis. |
| C39 | Long mounts shorten only when nothing is lost | expected false for some option combinations: negations + exact guard. |
| C40 | named_volumes_iter lists exactly the named volumes | list lemmas. |
| C41 | Service links round trip | round trip. |
| C42 | Namespace modes round trip | round trips with canonical side conditions. |
| C43 | volumes_from entries round trip | expected false for two names; negation + exact guard. |
| C44 | Devices, permissions and cgroup rules round trip | round trips. |
| C45 | User and group round trip, ids are never names | round trip; numeric classification. |
| C46 | MAC addresses round trip | round trip by nibble arithmetic; acceptance iff. |
| C47 | MAC addresses print as two digits per byte | expected false for a first byte below 16; negation + exact guard. |
| C48 | CPU sets round trip | `write_range` loop over the sorted set; induction. |
| C49 | Platforms round trip | the `platforms!` macro as a function from its table to its match arms; proved for every unambiguous table, then instantiated at the library's table. |
| C50 | Mutually exclusive fields are decoded exclusively | decoders over optional fields; iff. |
| C51 | Short forms are taken only when nothing is lost | generic model of the derive macro (fields with their test and default), iff for all faithful fields; each hand written instance as an iff with the literal value. |
| C52 | Bounded integers stay in range | iff. |
| C53 | Health checks decode to one meaning | fold over entries with decoder state; characterisation of success. |
| C54 | Health check decoding does not depend on key order | expected false; negation + partial. |
| C55 | List and map syntaxes convert without losing keys | list/map conversions over association lists. |
| C56 | Scalar values parse in the documented priority and print back | decision list; numbers parameterised over float parsing. |
| C57 | Build cache options round trip | round trip with guard; counterexamples. |
| C58 | SSH auth entries round trip | round trip with guard. |
| C59 | Device counts decode exactly | round trip; iff. |
| C60 | Top level resources decode external exclusively | decoder over optional fields. |
| C61 | Microsecond fields round trip | expected false beyond 2^64 microseconds; negation + exact guard. |
| C62 | Item or list views are faithful | list lemmas. |
| C63 | Extra hosts parse into host and address | parse model; equality of tables. |
| C64 | Build contexts expose git references exactly | string lemmas over the fragment. |
| C65 | CPU quotas are finite and non-negative | bit-level model of f64 sign/exponent. |
| C66 | An edited image survives being written and read | `parse` of the shown text against the abstract parts of C32/C34; exact condition for the round trip over all edit histories; witnesses where it fails. |
| C67 | Whole numbers of cores can be written as integers | expected false (the visitor has no integer method); negation + exact set of accepted inputs. |
| C68 | Duration fields round trip | decoder over serde values; composition with C07-C09. |
| C69 | Number conversions are exact | integers and float bits as rationals; iff per target type. |
| C70 | Structs accept exactly the documented keys | generic model of the code that serde derives (`Model/Derive`), one table of fields per struct (`Model/Structs`); `StandsFor` (`Spec/Derive`) says in terms of entries what a mapping means, `GivenAs` which entries a value gives (those of a mapping, or of a list of the values of the keys in order); the keys per struct are listed again in `Spec/Structs` and tied to the tables. |
| C71 | What is written is read back | induction over the table of fields from one law per field type; a whole file up to the order of extensions inside top-level resources, which pass through a `HashMap` of arbitrary order. |
| C72 | The order of keys does not matter | from `StandsFor`, which only mentions the values per key. |
| C73 | Writing is minimal and in a fixed order | induction over the table. |
| C74 | Reading never panics | expected false (C09, C14): witness for every struct that contains durations; never for all other structs; `Spec/Panic` lists where a file has durations and ports and says which texts panic there; proved that reading panics only because of such a text in such a place, and that an accepted file panics once a value in such a place is replaced by such a text. |
| C75 | Meaning of every field | `Spec/Meaning.lean` gives the meaning of every kind of value as a relation, `Spec/Schemas.lean` one table per struct (key, meaning, value if missing), both without functions of the model; proved that the readers of the model accept exactly what the tables say (iff), that a mapping means at most one value, and, with C71, that what is written means the value. |
| C76 | Loading, saving and loading again | every value that is read from an ordinary file is valid in the sense of C71 (one lemma per field type, from the meanings of C75, then induction over the tables), so the theorems do not mention validity; repetition by induction; negations for the two exceptions. |
| C77 | Empty means nothing is written | the functions `is_empty` over the tables of `Model/Structs`; `Spec/Empty.lean` says which documents hold nothing (relation over `Content` and a shape per struct); iff by cases over the fields. |
| C78 | Equality, hashes and sets agree | derived `==` and `Hash` of the types kept in sets, field by field; `Hash` is a fold of the parts into an abstract state, hashes of paths and extension values are parameters; `Spec/Equality.lean` states equality as relations; the set laws are proved for every `==` that is reflexive. |
| C79 | Comparing with plain numbers | the comparison impls; a range as the set of its ports; iff by arithmetic; expected false for ranges read from `n-n` (witness, and an exact iff for ranges read from text). |
| C80 | Images compare as their parts do | comparison by text; from C30–C31 the text of a parsed image determines its parts; negation for edited images (witness); dictionary order as an inductive relation. |
| C81 | A validation error tells what is wrong | `Display` as concatenation; injective because identifiers contain no backtick. |
| C82 | All texts of a value agree | every conversion modelled as written, compared with `Display` by cases; keywords compared with the tables of `Model/Structs`. |
| C83 | Options decide how a file is read | `serde_yaml` is a parameter (`Yaml`) with the law that direct reading is parsing and reading the value. |
| C84 | Messages name all causes | errors as chains; induction over the chain. |
| C85 | The default of a struct is what the empty document says | `Model/Defaults` gives every `Default` impl field by field; `Spec/Defaults` lists them with the document; by computation in every field for an arbitrary interpretation of foreign types. |
| C86 | Constructors and conversions make what the document says | `Model/Making` gives the constructors and `From` impls; `Spec/Making` says `Written document value` (written for it and read as it); by the round trips of C71 and the text types. False for containers named `ro`/`rw` and for caches made from a type alone. |
| C87 | Keys are found by their text | `Model/Lookup`: the key types with their `Eq`, `Ord`, `Hash`, `Borrow<str>`, and a hash table as a list of entries that uses only these; for any hash function, by induction over the insertions. |
| C88 | Converting between values, numbers, booleans and text | `Model/Convert` gives the conversions; `Spec/Convert` says which number a value stands for; exact conditions, with the error. |
| C89 | Accessors tell what the document says | `Model/Accessors`; the theorems relate each accessor to the form of the text or document, by the grammars of the earlier properties. |
| C90 | Every type is read from the documented kinds of values | `Spec/Kinds` lists the kinds for every type; `Model/Visitors` gives serde's visitors method by method, and the readers of the model are proved to be these visitors. A field written as `key:` is delivered by serde_yaml as null, except that it may also deliver it as an empty list or mapping; this is not modelled. |
| C91 | Null for an optional setting means that there is none | `Spec/Null` lists the optional keys of the 44 structs, generated from the types of the fields; a general lemma on tables of fields, with a case for every kind of field.  `Spec/NullMount` lists the keys of the five types of mounts, with those of the options that all types have. |
| C92 | The reason given for a rejected text is true | `Spec/Reasons` says for every variant of every error type what it claims about the text, in terms of the parts of the text between separators; only the error types are taken from the model. One theorem per parser. |
| C93 | The message shown for a rejected text is true and names the offending part | `Model/Messages` and `Model/ConvertMessages` give `Display` and `source` of every error type, as derived by thiserror; the message shown is `errorChain` (C84). `Spec/Messages` lists, per kind of text, the full messages with the condition on the text, without the error types. One theorem per parser, from C92 and C08. |
| C94 | The message for a rejected text of one line has one line | by cases on the messages of C93; the quoted parts are parts of the text. |
| C95 | Builds without overflow checks compute the same or what is documented | `Model/Release` gives the functions that do arithmetic, and those that call them, with wrapping arithmetic; agreement with the checked functions where those do not panic; grammar of accepted pairs with sizes modulo 65536; moving a range wraps at 65536. |
| C96 | Validation judges a file by what its document says | `Model/Load` carries the fields of a struct that was read over to the structures of `Model/Validate`; `Spec/Loaded` says when a document names or declares something, in terms of keys and texts only; from C75 (meaning of a document) and C23-C27. That the culprit is the first in the document: reading keeps the order of first occurrences, for keys (`firsts`), items of sets (`firstsBy`) and services. |
| C97 | The short syntax of a setting means what its long syntax says | `Spec/Longhand` rewrites a document without short syntax (`build`, `configs`, `secrets`, `depends_on`, `env_file`, `networks`, `ports`, `ulimits`, `volumes` of services, `secrets` and `ulimits` of builds, `include`), and says which value a value becomes (with the conversions of `Model/Longhand`); theorems say that the rewritten document is read exactly if the document is, as that value, in which nothing is in short form, and how validation of the two compares. An empty `depends_on` list is left, since it is what a service without dependencies has. Volumes and ports are rewritten by what they are read as (C12, C13, C20). |
| C98 | The order of keys does not matter anywhere in a file | `Spec/Order` says when two documents differ only in the order of entries of mappings, at any depth, where some keys may be required to keep their order; theorems for every struct, mounts and top-level resources (any order), and for services and files (`disable`/`test` of health checks and the extensions within a port or volume keep their order): readable in one order exactly if in the other, and what is read is written as the same document up to order. Induction over single exchanges; one lemma per type; for sets, the equality of elements must not see the order. |
| C99 | Editing one setting changes nothing else | `Spec/Edit` says when two documents differ in the setting at one path of keys (`Edited`: changed, added, or removed; its key is not repeated) and when what is written of them differs at most there (`DifferAt`: all other entries on the way are the same up to order; a mapping that is left out is compared with an empty one). One lemma per type that is read from a mapping; fields by the key or flattened part they belong to; resources by cases on `external`; mounts by cases on the type. `C99_test` shows that the test of a health check has to be left out. Paths do not lead through sequences: an item of a list is part of the setting. |
| C100 | A wrong key is reported wherever it is | `Spec/Places` says when a value stands at a place of a document (`StandsAt`: steps to a key, to any value, to any item) and lists the 47 places of a file where mappings with a fixed set of keys stand. One lemma per type and kind of field carries what is known of a part to the whole (`Proofs/Places`); C70 gives the rules for each struct. Mounts, resources, health checks and credential specs have their own rules. |
| C101 | A list of values means the mapping with the keys in order | `decodeSeq` (`Model/Derive`) models the `visit_seq` that serde derives and is part of the reader of every struct, so lists are read wherever such a struct stands in a file; induction over the table of fields against `StandsFor`, with the keys of `Spec/Structs` in order. `fileWithKeys` (`Spec/Positional`) rewrites a whole file; the rewriting lemmas of C97 give the equivalence. |
| C102 | IP addresses mean what their standard texts say | `Std/Net` models the parser and the `Display` impls of `core::net`, function by function; `Spec/Net` gives the texts of RFC 4291 and RFC 5952. Reading: soundness and completeness of the groups reader by induction over the groups, iff for the whole; writing: invariant of the loop that looks for the longest run of zeros. With this the assumptions of C17, C63 and `EnvOk` about addresses are proved (`C102_env`). |
| C103 | Following the messages of validation makes a file valid, and valid files stay valid with less in them | `Spec/Repair` defines smaller files, the loop of validating and declaring what is reported, and two files together. From the meaning of the four checks (C23–C27): the number of uses without a declaration gets smaller with each repair; volumes are counted with multiplicity. |
| C104 | The macros accept exactly the inputs they are documented for | `Model/Macros` models the functions that read and check the input of the macros, from what `syn` has parsed; `Spec/Macros` lists the accepted inputs. The loops by case analysis and induction over fields, attributes and definitions; for `platforms!` the definitions still needed after a state, up to permutation. |
| C105 | The error for an unknown definition in platforms! reads as a list of the expected names | Induction over the names; false for the code, with the exact text as `_partial`. |
| C106 | Decimal numbers in texts are the nearest doubles, and doubles are written as the shortest decimal numbers | `Std/Decimal` models `FromStr` and `Display` of `f64` by their results: rounding with exact integers, and a search for the largest power of ten with a multiple that is rounded to the double. `Spec/Decimal` says what rounding is in terms of `floatValue` and rationals, and what the texts are. Rounding: the middles between neighbouring doubles, in units of `2 ^ -1074` (`Proofs/Rounding`, `Proofs/RoundsTo`); reading: iff, by cases on the parts of the text; writing: rounding is monotone, so a power has a suitable multiple exactly if one of the two next to the double is suitable, and `10 ^ -1074` always has one. |
| C107 | Comparisons of numbers agree with the numbers | `Model/Greater` models the derived and handwritten comparisons, with the comparison of doubles of IEEE 754 (by sign and magnitude of the bits; NaN is not comparable). `Spec/Greater` gives each double its place among the rational numbers with two ends. The proof is that the number grows with the bits (`units_strictMono`, from C106); addresses are compared by induction on their bytes |
| C108 | The derived implementations ask and set every field | `Model/Expansion` writes the body of `as_short` part by part and the fields that `from` and `default` set; `Spec/Expansion` has the grammar of `if .. { } else { }` and what each field should be set to. Induction over the fields; false for `AsShort` on a struct with the short field only, exact otherwise (`_partial`). |
| C109 | Paths that are not Unicode are kept, or writing them fails | `Std/OsStr` models paths as bytes, `Path::to_str` and `Path::display` (UTF-8 decoding of Lean's core, `Utf8Chunks` of the standard library for the replaced bytes); `Model/OsPath` the values with such paths. Decoding is inverse to encoding, ASCII bytes are written as they are and nothing else becomes one, so the round trips of C37, C44 and C58 apply to what is written. False where `display` is used (`_false`), exact as `_partial`. |
| C110 | Paths are equal and ordered folder by folder, and the short syntax comes before the long one | `Model/Orders` models the derived orders: `Ord for Path` of std by components, `ShortOrLong` by variant and contents. `Spec/Orders` has the pieces between slashes (`List.splitOn` of Mathlib), the order of parts and what a total order is. Induction on the components; that equality by components is equality of the pieces by injectivity of the translation of pieces to components. |
| C111 | Numbers in scientific notation keep their value | `Std/Exponent` models `LowerExp` and `UpperExp` of integers and doubles in std (without width, precision and flags; the buffer of digits is not modelled), `Model/Exponent` those of `Number`. `Spec/Exponent` has the grammar of scientific notation with the number it stands for. Induction on the zeros at the end; uniqueness by comparing powers of ten; what is read back from C106. |
| C112 | Validation treats names as names: renaming consistently changes nothing else | `Spec/Renaming` relates two files by the names that their services use and their sections declare; nothing else of the files is mentioned. The loops by induction; for volumes the invariant that both maps of seen names agree up to the renaming on the names still to come. |
| C113 | With merging turned on, fragments are written out | `Std/Merge` models `serde_yaml::Value::apply_merge` from memory (section 3), which C83 has as a parameter: removing `<<`, inserting what is missing, then going into the values. `Spec/Merge` says which value a key has in a mapping with fragments, without an order of entries. Induction over the size of the document; the result is unique up to the order of keys (`SameButOrder` of C98). Partial: that no `<<` is left needs that the fragments met have no fragments themselves (`C113_left_iff` is exact). |

## 5. Disagreements between code and documentation

Found while proving.  Each is a theorem (`…_false`, or an exact iff) about the model, with a witness.

| property | what the code does |
|---|---|
| C09 | `duration::parse` panics (`expect`) when a run of digits exceeds `u64::MAX`. |
| C13, C14 | `Range::from_str` does not check start ≤ end, which `Range::new` does; on such a range `size` underflows, and on `0-65535` it overflows. |
| C26 | `validate_volumes` reports an error when one single service mounts the same named volume twice. |
| C31, C66 | Edited images with some registry-like names are read back as another image (exact conditions given). |
| C33 | `Image::from_parts` computes the start of tag and digest after pushing them: the getters panic or return the wrong part whenever there is a tag or a digest. |
| C34 | `Image::set_registry(None)` panics or corrupts the image if the registry is the whole name. |
| C28–C30 | A registry port may have a leading `+`; a tag may start with `.` or `-`. |
| C38 | `ShortVolume::into_long` drops the SELinux option for a named volume. |
| C39 | `Volume::into_short` loses `read_only` without a source, and empty volume options; `Bind::into_short` loses `create_host_path`. |
| C42 | Modes with a payload equal to a keyword do not round trip. |
| C43 | `VolumesFrom` with a container named `ro` or `rw` does not round trip. |
| C44 | Devices whose paths contain `:` do not round trip (exact condition). |
| C47 | `MacAddress` prints its first byte without zero padding; parsing accepts `+f` and `000ff`. |
| C51 | `Include` with a list of one path, `networks` with an attachment without settings, and `build` with an empty mapping of arguments count as short although they are not equal to the conversion of the short form. |
| C54 | `{disable: false, test: [NONE]}` is accepted, the same entries in the other order are a duplicate field error. |
| C55 | `ListOrMap::into_list` then `into_map` is not lossless (exact condition). |
| C56 | `-0` reads as a signed zero printed `0`; a non-negative `SignedInt` and an integral float read back as another variant. |
| C57 | A cache type without options prints as `type=local`, which is then tried only as an image and rejected. |
| C58 | An SSH id with `=` does not round trip. |
| C61 | Durations in microseconds are written as `u128` but read as `u64`. |
| C63 | An invalid earlier duplicate of an extra host is silently ignored. |
| C64 | `https://host/.git` is not taken as a git URL, `/foo.git/` is; `#:sub` gives an empty branch. |
| C65, C67 | `Cpus` rejects `-0.0` as negative and every integer (`cpus: 2`). |
| C69 | `f64::try_from(Number)` fails for integers beyond 32 bits. |
| C70 | The structs without an `Extensions` field (include, the limits of `blkio_config`, `develop`, `env_file`, `depends_on`, `extends`) silently ignore unknown keys, while all others reject every unknown key that does not start with `x-`. For `file`, `environment` and `content`, null counts as not given. |
| C71 | An empty map of labels, environment, ... is left out and comes back as an empty list; `depends_on` in the long form without entries comes back in the short form; the extensions of top-level resources come back in arbitrary order. |
| C74 | Reading a file panics for a duration such as `18446744073709551616s` and for a port such as `90-80:80`, in the places listed in `Spec/Panic`. |
| C76 | Two kinds of accepted entries do not survive saving and loading: an empty map where a list or a map is accepted, and `container:ro:rw` or `container:rw:rw` in `volumes_from`. |
| C79 | The range `80-80` read from text is equal to `80..=80` but not to `80`, nor to `Range::new(80, Some(80))`. |
| C80 | Images are compared by text: `a.b:80:t` with its tag removed (a registry with a port) is equal to the image `a.b` with tag `80`. |
| C86 | `VolumesFrom::from` a container named `ro` or `rw`, and `Cache::from` a type that is not an image: see C43 and C57. |
| C91 | `duration_option` reads with `deserialize_any`, for which null is delivered by `visit_unit`; only `visit_none` is written, so `stop_grace_period:` (null) is an error although leaving it out is not, and although null is accepted for every other optional setting. |
| C92 | `99999999999999999999` as a number of bytes is rejected for an "unknown unit"; `-0.0` and NaNs with the sign set are rejected as CPUs for being "negative". |
| C93 | `.5s` and `-1s` are rejected as durations with the message that they do not contain digits. `a/` is rejected as an image name with the message that there were two slashes in a row or the name was empty. |
| C94 | The message about an invalid character in the algorithm of a digest contains a line break and the indentation of the source code. |
| C95 | Without overflow checks, `9-5:1-65533` is accepted as a pair of ranges although no port of the host is left to publish; every container port is then paired with no host port. |
| C97 | The long syntax of a named volume has no label, so `data:/var` and `data:/var:z` are the same volume once converted: a file that `validate_volumes` rejects because one service mounts an undeclared volume twice may be valid in long syntax. |
| C98 | `healthcheck: {disable: false, test: [NONE]}` is read as a disabled health check, with the two settings in the other order it is an error (see C54). `Port` and the mounts compare their extensions in order (`extensions.as_slice()`), so whether two ports or volumes with the same extensions are one item of the set or two depends on the order of the extensions. |
| C105 | The message for an unknown enum in `platforms!` reads ``expected or `Platform` or `Os` or `Arch` ``: the message starts as `expected` and is then never empty. |
| C108 | `AsShort` on a struct with no field but the short one expands to `if { .. } else { .. }` without a condition, which does not compile; there is no such use in the repository. |
| C109 | A volume, device or SSH entry with a path that is not UTF-8 (made by a program, on Unix) is written without an error, with U+FFFD for the bytes that are not UTF-8, and is read as another path. The long syntax of the same volume refuses to be written, but `into_short` turns it into the short one. |
| C113 | If the model of `apply_merge` is right, which could not be checked here (section 3), a fragment that has a `<<` key itself puts this key back into the mapping, and it stays there unmerged. This would be the behaviour of serde_yaml, not of code in `/repo`; the documentation of `Options::apply_merge` does not mention the case. |

## 6. Axioms and assumptions

Every theorem listed in `MANIFEST.json` depends on no axioms other than `propext`, `Classical.choice` and `Quot.sound`
(`#print axioms` on each; many use fewer).  No axiom is declared in `Verif`, no `sorry`, `admit`, `native_decide` or `bv_decide` is used.

Assumptions in the model, apart from section 3:

* Arithmetic is checked (a debug build, or `overflow-checks = true`): an overflow is a panic.  Builds without these checks are the subject of C95 (`Model/Release`).
* `Std/Path` models `Path` on Unix: a path is its text, `is_absolute` is a leading `/`, `starts_with` is by component.
* `Std/Bytes` models positions in a `str` as UTF-8 byte positions.
* `F64` is the bit pattern of an IEEE 754 double; comparison and conversion are defined on it; reading and writing text (`FloatText`) is a parameter; `stdFloat` is the one of the standard library, for which C106 proves what is assumed.  `Std/Decimal` models the results of `core::num::dec2flt` and `core::num::flt2dec`, not their algorithms; the exponent in a text is not cut off at 65536 as in the code (this matters only for numbers with tens of thousands of digits), and which of two equally close shortest texts is written is a parameter (`tieUp`).
* `IpAddr`, `IpNet`, `Url` and `f64` text conversions are parameters of the theorems, with the round trip law as an explicit hypothesis where it is needed.  For `IpAddr`, `Ipv4Addr` and `Ipv6Addr` C102 proves what is assumed, for the model of `core::net` in `Std/Net` (written from memory of its source code, see section 3).
* `BTreeSet` is the strictly increasing list of its elements.
* `IndexMap`/`IndexSet` are lists of entries without repeated keys.  The library's `==` on them ignores order; the theorems prove equality of the lists, which is stronger.
* The data handed to `Deserialize` is `Rust.Content`: null, bool, unsigned, signed, float, string, sequence or mapping.  A scalar asked for as a string is `str`.  How serde_yaml turns text into this data is not modelled.
* A struct is read only from a mapping with string keys or, if it has no flattened fields, from a sequence of its fields in order (C101).  The variants of enums without data and the `type` of a mount are read only from strings.  Null for a collection is an error: this is what serde_yaml does with `null` and `~`; a key with nothing behind it, and null in a `serde_yaml::Value` (which is what is read with `Options::apply_merge`), is delivered to `deserialize_seq` and `deserialize_map` as an empty sequence or mapping, so in the model such a document has to be given with an empty `seq` or `map` there.
* The tables in `Model/Structs` use one product type per struct and are separate from the structures used in the models of validation, conversion and short syntaxes; for validation and mounts `Model/Load` carries the fields over.
* What is taken from other crates is collected in `Env`; `EnvOk` (`Spec/Structs`) lists what is assumed of it; `Props/Structs` shows an `Env` that meets this.  C76 also assumes `UrlOk` (`Spec/Ordinary`): the text of a parsed URL is parsed as that URL, and `.` is not a URL.  C97 assumes `ValueEqOk` (`Spec/Longhand`): `==` of the values of extensions is reflexive and transitive.  C98 assumes `ValueEqUnordered` (`Spec/Order`): this `==` does not see the order of entries of mappings (`serde_yaml::Mapping` compares as an `IndexMap`).
* Sets (`IndexSet`) are filled with the `==` of their elements: paths are compared by components, values of extensions by `Env.valueEq` (a parameter, the `==` of `serde_yaml::Value`).  The theorems about values read and written compare the values of extensions as `Content`, which tells `0.0` from `-0.0` and mappings with another order apart.  The generic `ItemOrList` of `Model/Common` uses decidable equality.
