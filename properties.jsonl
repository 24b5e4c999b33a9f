{"id": "C01", "title": "Identifier accepts exactly its grammar", "statement": "Identifier::new(s) (and therefore FromStr, TryFrom and deserialization) succeeds iff s is [a-zA-Z0-9][a-zA-Z0-9._-]*; on success the stored text is s unchanged, and on failure the error names the reason: Empty for \"\", Start for a bad first character, otherwise the first character outside the set.", "quantifier": "every string", "why_tests_cant": "the set of strings is infinite; a test fixes finitely many literals", "anchors": ["src/common/keys.rs: Identifier::new, InvalidIdentifierError"]}
{"id": "C02", "title": "Project name accepts exactly its grammar", "statement": "Name::new(s) succeeds iff s matches ^[a-z0-9][a-z0-9_-]*$; the accepted name displays as s; otherwise the error is Empty, Start(first char) or Character(first offending char).", "quantifier": "every string", "why_tests_cant": "the set of strings is infinite; a test fixes finitely many literals", "anchors": ["src/name.rs: Name::new, InvalidNameError"]}
{"id": "C03", "title": "Map and extension keys are exactly the documented single-line keys", "statement": "MapKey::new accepts exactly the non-empty strings without a newline; ExtensionKey::new accepts exactly the strings that begin with x- and have no newline; both keep the text unchanged.", "quantifier": "every string", "why_tests_cant": "the set of strings is infinite; a test fixes finitely many literals", "anchors": ["src/common/keys.rs: MapKey::new, ExtensionKey::new"]}
{"id": "C04", "title": "Hostname accepts exactly RFC 1123 dotted labels", "statement": "Hostname::new(s) succeeds iff s is a dot-separated list of non-empty labels, each made of ASCII letters, digits and hyphens, none beginning or ending with a hyphen.", "quantifier": "every string, any number of labels of any length", "why_tests_cant": "the set of strings is infinite; a test fixes finitely many literals", "anchors": ["src/service/hostname.rs: Hostname::new"]}
{"id": "C05", "title": "User and group names accept exactly their grammar", "statement": "The user/group Name::new(s) accepts exactly the non-empty strings of at most 32 bytes made of ASCII letters, digits, '_', '-' with optionally a final '$', not starting with '-' and not made of digits only; the stored text is s.", "quantifier": "every string", "why_tests_cant": "the set of strings is infinite; a test fixes finitely many literals", "anchors": ["src/service/user.rs: Name::new"]}
{"id": "C06", "title": "Short validated strings accept exactly their grammar", "statement": "ulimits::Resource::new accepts exactly the non-empty strings of a-z; CacheOption::new accepts exactly the non-empty strings without whitespace; build Network parses \"none\" specially and any other valid identifier, and nothing else.", "quantifier": "every string", "why_tests_cant": "the set of strings is infinite; a test fixes finitely many literals", "anchors": ["src/service/ulimit.rs: Resource::new", "src/service/build/cache.rs: CacheOption::new", "src/service/build/network.rs: Network::parse"]}
{"id": "C07", "title": "Duration print/parse round trip", "statement": "For every duration d, parsing the text printed for d gives back d truncated to whole microseconds.", "quantifier": "every duration a Rust Duration can hold (u64 seconds, < 10^9 nanoseconds)", "why_tests_cant": "2^64 * 10^9 values and multi-field formatting with zero fields skipped", "anchors": ["src/duration.rs: to_string, parse"]}
{"id": "C08", "title": "Duration parsing computes the sum of its terms", "statement": "A string that is a sequence of <digits><unit> terms with units h, m, s, ms, us and no overflow parses to the sum of the terms; nothing else is accepted: the empty string, missing digits, a missing or unknown unit, and a sum too large for a Duration are errors.", "quantifier": "every sequence of terms, of any length, any u64 numbers", "why_tests_cant": "term sequences are unbounded and the overflow boundary depends on the running sum", "anchors": ["src/duration.rs: parse, add_duration"]}
{"id": "C09", "title": "Duration parsing never panics", "statement": "parse returns a Result for every string, never panics (a number too large must be reported as an error).", "quantifier": "every string", "why_tests_cant": "panics happen only beyond 20 digit numbers, random tests miss it", "anchors": ["src/duration.rs: parse"]}
{"id": "C10", "title": "Byte values round trip through text", "statement": "Formatting any ByteValue and parsing the text gives back the same value, and parsing accepts exactly a u64 followed by one of the documented unit spellings.", "quantifier": "every u64 amount in every unit; every string", "why_tests_cant": "2^64 values per unit, infinite strings", "anchors": ["src/service/byte_value.rs: ByteValue::from_str, Display"]}
{"id": "C11", "title": "Byte values convert to bytes exactly or not at all", "statement": "into_bytes returns amount * 1000^k exactly when it fits in u64 and None when it does not; it never wraps.", "quantifier": "every u64 amount and unit", "why_tests_cant": "boundary between fitting and overflowing values", "anchors": ["src/service/byte_value.rs: ByteValue::into_bytes"]}
{"id": "C12", "title": "Limits round trip and -1 means unlimited", "statement": "Limit displayed and parsed gives back the same Limit whenever the inner type round trips and never prints -1; integers: -1 is Unlimited, non negative is a value, below -1 is an error.", "quantifier": "every limit value; every i64 and u64", "why_tests_cant": "whole i64 range", "anchors": ["src/service/limit.rs: Limit Display, FromStr, Deserialize"]}
{"id": "C13", "title": "Port ranges keep start <= end and round trip", "statement": "Range::new succeeds iff start < end or there is no end (equal ends collapse to one port); a valid range prints and parses back to itself, and its size is the number of ports it contains.", "quantifier": "every pair of u16", "why_tests_cant": "2^32 pairs", "anchors": ["src/service/ports.rs: Range::new, Range::size, Display, FromStr"]}
{"id": "C14", "title": "Parsing a port range validates it", "statement": "A Range obtained from a string satisfies start <= end just like one made by Range::new.", "quantifier": "every string", "why_tests_cant": "the set of strings is infinite; a test fixes finitely many literals", "anchors": ["src/service/ports.rs: Range::from_str"]}
{"id": "C15", "title": "Host and container ranges of a ShortRanges always have equal size", "statement": "Whatever sequence of replace_host, take_host and replace_container is applied to a ShortRanges built from valid ranges, its host range (if any) has the same number of ports as its container range; a rejected replacement leaves it unchanged.", "quantifier": "every initial value and every finite sequence of operations", "why_tests_cant": "histories of unbounded length", "anchors": ["src/service/ports.rs: ShortRanges::new, replace_host, take_host, replace_container, range_size_eq"]}
{"id": "C16", "title": "ShortRanges round trip and pair ports one to one", "statement": "A well formed ShortRanges prints to text that parses back to it, and its iterator yields exactly size pairs (host start + i, container start + i). A value reads back from its text exactly if it is well formed, and every value that was read is.", "quantifier": "every pair of equal size valid ranges", "why_tests_cant": "all u16 ranges", "anchors": ["src/service/ports.rs: ShortRanges Display, FromStr, IntoIter"]}
{"id": "C17", "title": "Short port syntax round trips", "statement": "Every well formed ShortPort (host IP, ranges, protocol) prints to text that parses back to the same ShortPort, whatever the IP version, and when serialized as a bare number it deserializes to the same port. Only well formed ones read back, and every ShortPort that was parsed is well formed.", "quantifier": "every IP (abstract print/parse), range pair and protocol", "why_tests_cant": "combination of optional fields, IPv6 brackets and colons", "anchors": ["src/service/ports.rs: ShortPort Display, FromStr, Serialize"]}
{"id": "C18", "title": "A short port expands to one long port per published port", "statement": "ShortPort::into_long_iter yields one long Port per container port, in order; the i-th has target = container start + i, published = host start + i (if a host range was given), and the same host IP and protocol.", "quantifier": "every well formed short port", "why_tests_cant": "ranges of any size up to 65536", "anchors": ["src/service/ports.rs: ShortPort::into_long_iter"]}
{"id": "C19", "title": "Long to short port conversion loses nothing", "statement": "If Port::into_short succeeds then expanding the short port yields exactly one port equal to the original; if it fails the original is returned unchanged.", "quantifier": "every long port", "why_tests_cant": "all combinations of optional fields", "anchors": ["src/service/ports.rs: Port::into_short, ShortPort::into_long_iter"]}
{"id": "C20", "title": "Converting a port list to short or long form keeps every port", "statement": "into_long_iter of a ports list yields the concatenation, in order, of the expansion of each element; into_short_iter yields for each element its short form or, if it has none, the element itself: nothing is dropped, duplicated or reordered.", "quantifier": "every list of ports in any mix of syntaxes", "why_tests_cant": "lists of any length", "anchors": ["src/service/ports.rs: into_short_iter, into_long_iter"]}
{"id": "C21", "title": "Transport protocols round trip", "statement": "Protocol parse(as_str(p)) = p for every canonical protocol, and as_str(parse(s)) = s for every string.", "quantifier": "every string, every protocol", "why_tests_cant": "the set of strings is infinite; a test fixes finitely many literals", "anchors": ["src/service/ports.rs: Protocol::parse, as_str"]}
{"id": "C22", "title": "Expose entries round trip", "statement": "Every Expose (range plus optional protocol) prints to text that parses back to it; when it has neither end nor protocol it is serialized as the integer, which deserializes to the same value. The only ones that do not read back have a known protocol under Other, and none of these results from parsing.", "quantifier": "every expose", "why_tests_cant": "all u16 ranges and any protocol text", "anchors": ["src/service/expose.rs: Expose FromStr, Display, Serialize"]}
{"id": "C23", "title": "Network validation is sound, complete and names the culprit", "statement": "validate_networks fails iff some service uses a network absent from the top level networks; the error names a service and a network it uses which is really missing, the first one in order.", "quantifier": "every compose file: any number of services and networks", "why_tests_cant": "unbounded maps", "anchors": ["src/lib.rs: Compose::validate_networks", "src/service.rs: Service::validate_networks"]}
{"id": "C24", "title": "Config and secret validation is sound, complete and names the culprit", "statement": "validate_configs / validate_secrets fail iff some service refers to a config / secret absent from the top level map, and report the first such service and source.", "quantifier": "every compose file", "why_tests_cant": "unbounded maps", "anchors": ["src/lib.rs: validate_configs, validate_secrets", "src/service.rs: validate_configs, validate_secrets"]}
{"id": "C25", "title": "Volume validation flags exactly undeclared shared volumes", "statement": "validate_volumes fails iff some named volume is mentioned at least twice across services and is not declared at top level; the reported volume is such a volume.", "quantifier": "every list of services, each with any list of volumes", "why_tests_cant": "unbounded service lists with a mutable seen map", "anchors": ["src/lib.rs: Compose::validate_volumes"]}
{"id": "C26", "title": "A volume used by one service only is never required at top level", "statement": "Per the Compose specification a named volume must be declared at top level only if it is used across multiple services.", "quantifier": "every compose file", "why_tests_cant": "needs one service mounting one volume twice", "anchors": ["src/lib.rs: Compose::validate_volumes"]}
{"id": "C27", "title": "validate_all is the conjunction of the four checks in order", "statement": "validate_all succeeds iff the networks, volumes, configs and secrets checks all succeed, and otherwise returns the error of the first failing one in that order.", "quantifier": "every compose file", "why_tests_cant": "unbounded maps", "anchors": ["src/lib.rs: Compose::validate_all"]}
{"id": "C28", "title": "Image name parts follow the OCI grammar", "statement": "An image name is accepted iff each '/' separated part is alnum+ (('.'|'_'|'__'|'-'+) alnum+)* in lower case (the first part, if it contains a dot, being a registry with an optional port).", "quantifier": "every string", "why_tests_cant": "the set of strings is infinite; a test fixes finitely many literals", "anchors": ["src/service/image/name.rs: Name::new, validate_part"]}
{"id": "C29", "title": "Image tags and digests accept exactly their grammars", "statement": "Tag::new accepts exactly 1 to 128 characters from [a-zA-Z0-9._-]; Digest::new accepts exactly algorithm ':' encoded, with algorithm = [a-z0-9]+([+._-][a-z0-9]+)* and encoded = [a-zA-Z0-9=_-]+.", "quantifier": "every string", "why_tests_cant": "the set of strings is infinite; a test fixes finitely many literals", "anchors": ["src/service/image/tag.rs: Tag::new", "src/service/image/digest.rs: Digest::new"]}
{"id": "C30", "title": "A parsed image decomposes into exactly its parts", "statement": "If Image::parse(s) succeeds then the image prints as s, and s is the name followed by ':' and the tag, or '@' and the digest, or nothing, where name(), tag(), digest(), registry() return those valid parts; never both a tag and a digest.", "quantifier": "every string", "why_tests_cant": "the set of strings is infinite; a test fixes finitely many literals", "anchors": ["src/service/image.rs: Image::parse, name, tag, digest, registry, as_parts"]}
{"id": "C31", "title": "Image text reassembles", "statement": "For every valid name without a tag-like port, and optional valid tag or digest, parsing name[:tag|@digest] succeeds and yields those parts.", "quantifier": "every valid name, tag, digest", "why_tests_cant": "the set of strings is infinite; a test fixes finitely many literals", "anchors": ["src/service/image.rs: Image::parse, parse_impl"]}
{"id": "C32", "title": "Editing an image keeps its parts consistent", "statement": "After any sequence of set_tag, set_digest, set_tag_or_digest, set_name on a parsed image the getters never panic and return what was last set: setting the tag changes only the tag, setting the name changes only the name.", "quantifier": "every image and every finite sequence of edits with valid arguments", "why_tests_cant": "histories of unbounded length over cached byte offsets", "anchors": ["src/service/image.rs: set_tag, set_digest, set_tag_or_digest, set_name, update_tag_or_digest_start"]}
{"id": "C33", "title": "Image::from_parts agrees with parsing", "statement": "from_parts(name, tag_or_digest) yields an image whose name(), tag() and digest() return the given parts.", "quantifier": "every name and optional tag or digest", "why_tests_cant": "cached offsets are compared by no equality", "anchors": ["src/service/image.rs: Image::from_parts"]}
{"id": "C34", "title": "Editing the registry of an image is safe", "statement": "set_registry(Some(r)) / set_registry(None) on any image replaces / removes just the registry, keeps tag and digest, and never panics.", "quantifier": "every image, every registry", "why_tests_cant": "offset arithmetic over arbitrary strings", "anchors": ["src/service/image.rs: Image::set_registry"]}
{"id": "C35", "title": "Volume sources classify by their first characters", "statement": "Source::parse(s) gives a host path exactly if s is absolute or its first path component is '.' or '..', a named volume exactly if s is an identifier, and an error otherwise; texts beginning with '.' or '/' are never named volumes; printing the result gives s.", "quantifier": "every string", "why_tests_cant": "the set of strings is infinite; a test fixes finitely many literals", "anchors": ["src/service/volumes.rs: Source::parse"]}
{"id": "C36", "title": "Absolute and host paths stay absolute / relative-marked", "statement": "AbsolutePath holds an absolute path and HostPath one that is absolute or whose first component is '.' or '..', after construction and after any sequence of push and pop; pop removes exactly the last component or changes nothing.", "quantifier": "every path and every finite sequence of push/pop", "why_tests_cant": "histories of unbounded length", "anchors": ["src/service/volumes.rs: AbsolutePath, HostPath"]}
{"id": "C37", "title": "Short volume syntax round trips", "statement": "Every ShortVolume whose parts contain no ':' prints to text that parses back to it.", "quantifier": "every source, container path, access mode, SELinux flag", "why_tests_cant": "all path strings", "anchors": ["src/service/volumes.rs: ShortVolume Display, FromStr"]}
{"id": "C38", "title": "Short volumes expand faithfully", "statement": "ShortVolume::into_long gives a mount with the same target and source, read_only iff the short mode was ro; a host path becomes a bind with create_host_path, anything else a volume mount; and back via into_short gives the original short volume.", "quantifier": "every short volume", "why_tests_cant": "all option combinations", "anchors": ["src/service/volumes.rs: ShortVolume::into_long", "src/service/volumes/mount.rs: Mount::into_short"]}
{"id": "C39", "title": "Long mounts shorten only when nothing is lost", "statement": "If Mount::into_short succeeds, expanding the result gives back a mount equal to the original; otherwise the original is returned unchanged.", "quantifier": "every mount", "why_tests_cant": "all option combinations", "anchors": ["src/service/volumes/mount.rs: Mount::into_short, Volume::into_short, Bind::into_short"]}
{"id": "C40", "title": "named_volumes_iter lists exactly the named volumes", "statement": "named_volumes_iter yields, in order and with multiplicity, the names of the volumes that short or long entries mount by name, and nothing for host paths, anonymous volumes, binds, tmpfs.", "quantifier": "every list of volumes in any mix of syntaxes", "why_tests_cant": "lists of any length", "anchors": ["src/service/volumes.rs: named_volumes_iter"]}
{"id": "C41", "title": "Service links round trip", "statement": "Link parse(display(l)) = l, and a link without alias prints as the bare service name.", "quantifier": "every link (identifiers)", "why_tests_cant": "the set of strings is infinite; a test fixes finitely many literals", "anchors": ["src/service.rs: Link"]}
{"id": "C42", "title": "Namespace modes round trip", "statement": "Ipc, NetworkMode, EndpointMode, network Driver and device Capability: as text and back is the identity for canonical values, and text to value to text is the identity for every accepted string; \"service:x\" is accepted iff x is an identifier.", "quantifier": "every string, every value", "why_tests_cant": "the set of strings is infinite; a test fixes finitely many literals", "anchors": ["src/service.rs: Ipc", "src/service/network_config.rs: NetworkMode", "src/service/deploy/endpoint_mode.rs", "src/network.rs: Driver", "src/service/deploy/resources.rs: Capability"]}
{"id": "C43", "title": "volumes_from entries round trip", "statement": "Every VolumesFrom prints to text that parses back to the same entry.", "quantifier": "every source and read_only flag", "why_tests_cant": "the set of strings is infinite; a test fixes finitely many literals", "anchors": ["src/service.rs: VolumesFrom, VolumesFromSource"]}
{"id": "C44", "title": "Devices, permissions and cgroup rules round trip", "statement": "Permissions accept exactly the strings over r, w, m (any order, repeats ignored) and CgroupRule and Permissions print to text that parses back to the same value; a Device does so exactly when neither of its paths contains a colon.", "quantifier": "every value; every permission string", "why_tests_cant": "all path strings and u16/u32 numbers", "anchors": ["src/service/device.rs: Device, Permissions, CgroupRule, Kind, MajorMinorNumber"]}
{"id": "C45", "title": "User and group round trip, ids are never names", "statement": "User{user, group} prints as user[:group] and parses back to itself; a numeric text below 2^32 always parses as an id.", "quantifier": "every id and valid name", "why_tests_cant": "the set of strings is infinite; a test fixes finitely many literals", "anchors": ["src/service/user.rs: User, IdOrName"]}
{"id": "C46", "title": "MAC addresses round trip", "statement": "Every 6-byte MacAddress prints to text that parses back to it; parsing accepts exactly 6 colon separated hexadecimal bytes.", "quantifier": "all 2^48 addresses; every string", "why_tests_cant": "2^48 values", "anchors": ["src/service/network_config.rs: MacAddress FromStr, Display"]}
{"id": "C47", "title": "MAC addresses print as two digits per byte", "statement": "MacAddress displays as six two-digit lower case hexadecimal bytes separated by colons, as its documentation shows.", "quantifier": "all 2^48 addresses", "why_tests_cant": "2^48 values", "anchors": ["src/service/network_config.rs: MacAddress Display"]}
{"id": "C48", "title": "CPU sets round trip", "statement": "A CpuSet prints as a comma separated list of ranges that parses back to the same set; parsing yields exactly the union of listed numbers and ranges.", "quantifier": "every finite set of CPU numbers; every list of items", "why_tests_cant": "sets of any size", "anchors": ["src/service/cpuset.rs: CpuSet Display, FromStr"]}
{"id": "C49", "title": "Platforms round trip", "statement": "Platform::from_str(as_str(p)) = p for every platform, as_str is injective, os() and arch() agree with the text, TryFrom<Arch> for each OS accepts exactly its listed architectures, the message otherwise names both, and text outside the table is rejected; the same for the types of operating systems, architectures and variants.", "quantifier": "the whole platform table and every string", "why_tests_cant": "rejection ranges over all strings; the table is produced by a macro", "anchors": ["src/service/platform.rs: platforms!", "compose_spec_macros/src/platforms.rs", "compose_spec_macros/src/platforms/os.rs", "compose_spec_macros/src/platforms/arch.rs"]}
{"id": "C50", "title": "Mutually exclusive fields are decoded exclusively", "statement": "dockerfile/dockerfile_inline, network_mode/networks, a config's file/environment/content, a secret's file/environment, and credential_spec's config/file/registry: decoding fails if more than one is present, yields the one that is present, and where one is required fails if none is.", "quantifier": "every combination of present fields with any values", "why_tests_cant": "all combinations with arbitrary values", "anchors": ["src/service/build/dockerfile.rs", "src/service/network_config.rs: option::deserialize", "src/config.rs: Source", "src/secret.rs: Source", "src/service/credential_spec.rs"]}
{"id": "C51", "title": "Short forms are taken only when nothing is lost", "statement": "as_short of a long value returns Some(s) exactly if the value says no more than s: for ulimits, env files, service configs and secrets, port ranges and depends_on, iff it equals From(s) (every listed service required, started, not restarted); for include also if the path is a list of just s; for networks iff every attachment is absent or has no settings; for build iff every field but the context is empty. From(s).as_short() = Some(s), and a mapping written as its keys converts back to itself.", "quantifier": "every value", "why_tests_cant": "all combinations of fields", "anchors": ["compose_spec_macros/src/as_short.rs: FromShort", "src/service/ulimit.rs", "src/include.rs", "src/service/env_file.rs", "src/service/config_or_secret.rs", "src/common/short_or_long.rs"]}
{"id": "C52", "title": "Bounded integers stay in range", "statement": "Percent, OomScoreAdj and blkio Weight hold only 0..=100, -1000..=1000 and 10..=1000; construction succeeds iff the input is in range and keeps it; ordering/conversion is the identity.", "quantifier": "every u8 / i16 / u16", "why_tests_cant": "whole integer ranges", "anchors": ["src/service.rs: Percent, OomScoreAdj", "src/service/blkio_config.rs: Weight"]}
{"id": "C53", "title": "Health checks decode to one meaning", "statement": "A healthcheck decodes to Disable iff it is disabled (disable: true or test: [NONE]) with no other settings; otherwise to a command with exactly the given fields; a disabled check with other settings, duplicate keys, or a malformed test is an error; serialized health checks decode to themselves.", "quantifier": "every finite sequence of key/value entries", "why_tests_cant": "sequences of entries in any order and number", "anchors": ["src/service/healthcheck.rs: Healthcheck Deserialize, DisableOrTest, Serialize"]}
{"id": "C54", "title": "Health check decoding does not depend on key order", "statement": "Permuting the entries of a healthcheck map does not change whether it decodes or to what.", "quantifier": "every pair of permutations of every entry list", "why_tests_cant": "factorially many orders", "anchors": ["src/service/healthcheck.rs: visit_map"]}
{"id": "C55", "title": "List and map syntaxes convert without losing keys", "statement": "into_list of a map yields key or key=value in order (merging equal texts); into_map of a list splits each item at the first '=', parses the value, treats an empty value as none, keeps the last value of a repeated key, and fails iff a key is not valid. A map converted to a list and back is the same map, and a list converted to a map and back is the same list, exactly under the stated conditions on keys and values.", "quantifier": "every list and map", "why_tests_cant": "any number of entries, any text", "anchors": ["src/common.rs: ListOrMap::into_list, into_map, into_map_split_on"]}
{"id": "C56", "title": "Scalar values parse in the documented priority and print back", "statement": "Value::parse(s) is Bool iff s is true or false; an unsigned integer iff s is digits with an optional + and a value up to u64::MAX; a signed integer iff s is - and digits with a value down to i64::MIN; a float iff s has any other character and is a float; and otherwise the string s itself. Printing a value and parsing it gives the value back except for non-negative signed integers, strings that look like something else, and floats that print without a point.", "quantifier": "every string", "why_tests_cant": "the set of strings is infinite; a test fixes finitely many literals", "anchors": ["src/common.rs: Value::parse, Number::from_str, TryFrom impls"]}
{"id": "C57", "title": "Build cache options round trip", "statement": "Every Cache value prints to text that parses back to the same value (image reference for a plain registry cache, type=..,key=value list otherwise); into_options lists the type, the image of a registry cache, and the other options, in order.", "quantifier": "every cache value", "why_tests_cant": "unbounded option maps", "anchors": ["src/service/build/cache.rs: Cache::parse, Display, into_options"]}
{"id": "C58", "title": "SSH auth entries round trip", "statement": "Parsing accepts exactly \"default\" and id=path with both parts non-empty (the id ending at the first '='); an entry prints to text that parses back to it exactly when its id contains no '='.", "quantifier": "every entry and string", "why_tests_cant": "the set of strings is infinite; a test fixes finitely many literals", "anchors": ["src/service/build/ssh_auth.rs: SshAuth, Id"]}
{"id": "C59", "title": "Device counts decode exactly", "statement": "Count displays as all or the integer and parses back; no other string is accepted.", "quantifier": "every u64, every string", "why_tests_cant": "the set of strings is infinite; a test fixes finitely many literals", "anchors": ["src/service/deploy/resources.rs: Count"]}
{"id": "C60", "title": "Top level resources decode external exclusively", "statement": "Resource<T> with external: true decodes to External with the given optional name, and fails if any other field is set; external: false or absent decodes to the Compose resource with those fields; a written resource reads back as itself.", "quantifier": "every field combination", "why_tests_cant": "all combinations with arbitrary values", "anchors": ["src/common.rs: Resource"]}
{"id": "C61", "title": "Microsecond fields round trip", "statement": "A duration field serialized as microseconds deserializes to the same duration truncated to microseconds.", "quantifier": "every duration", "why_tests_cant": "values beyond 2^64 microseconds", "anchors": ["src/serde/duration_us_option.rs"]}
{"id": "C62", "title": "Item or list views are faithful", "statement": "ItemOrList::into_list holds exactly the items in order; as_item returns the item iff there is exactly one; EnvFile::into_list / as_single agree with the listed files.", "quantifier": "every item or list", "why_tests_cant": "lists of any length", "anchors": ["src/common.rs: ItemOrList", "src/service/env_file.rs: EnvFile"]}
{"id": "C63", "title": "Extra hosts parse into host and address", "statement": "extra_hosts list entries split at the first '=' or ':' into a host name and an IP (brackets around the address ignored); the last entry of a repeated host counts; for distinct hosts the map form and both list forms give the same table.", "quantifier": "every list of entries", "why_tests_cant": "the set of strings is infinite; a test fixes finitely many literals", "anchors": ["src/service.rs: extra_hosts, strip_brackets"]}
{"id": "C64", "title": "Build contexts expose git references exactly", "statement": "A context is a git repository URL iff its scheme is http or https (any case) and the file name of its path has the extension git (any case); for such a URL with a fragment, branch_or_tag returns the text before the first ':' (or the whole fragment) and subdirectory the text after it, if there is one; otherwise both return None.", "quantifier": "every context: every path and every URL", "why_tests_cant": "the set of strings is infinite; a test fixes finitely many literals", "anchors": ["src/service/build/context.rs: branch_or_tag, subdirectory"]}
{"id": "C65", "title": "CPU quotas are finite and non-negative", "statement": "Cpus::new accepts exactly the finite values with a clear sign bit and keeps them.", "quantifier": "all 2^64 float bit patterns", "why_tests_cant": "NaN, infinities and signed zero over all bit patterns", "anchors": ["src/service/deploy/resources.rs: Cpus::new"]}
{"id": "C66", "title": "An edited image survives being written and read", "statement": "Parsing the text of an image that was parsed and then edited any number of times gives an image with the same name, registry, tag and digest.", "quantifier": "every image and every finite sequence of edits with valid arguments", "why_tests_cant": "The edit histories are unbounded and only some end in ambiguous texts.", "anchors": ["src/service/image.rs: parse, set_registry, set_name, set_tag, set_digest, Display"]}
{"id": "C67", "title": "Whole numbers of cores can be written as integers", "statement": "A cpus value written as an integer (cpus: 2) decodes to that number of cores.", "quantifier": "every integer and float handed over by the deserializer", "why_tests_cant": "the input kind depends on the spelling of the number; all values", "anchors": ["src/service/deploy/resources.rs: Cpus, CpusVisitor"]}
{"id": "C68", "title": "Duration fields round trip", "statement": "A field that holds a duration reads microsecond integers and duration strings, rejects everything else, and the text written for a duration reads back as that duration truncated to microseconds.", "quantifier": "every duration and every serde value", "why_tests_cant": "all durations and values", "anchors": ["src/serde/duration_option.rs", "src/duration.rs: parse, to_string"]}
{"id": "C69", "title": "Number conversions are exact", "statement": "Converting a Number to u64 or i64 succeeds exactly when it is an integer in range and keeps the value; converting to f64 always keeps the value exactly and fails only for unsigned integers above u32::MAX and signed integers outside i32; a Value converts to the number it is, a string to the number it denotes, true to 1 and false to 0.", "quantifier": "every number and every value", "why_tests_cant": "all 2^64 integers and floats of each kind", "anchors": ["src/common.rs: Number, Value, TryFrom impls"]}
{"id": "C70", "title": "Structs accept exactly the documented keys", "statement": "Every struct that makes up a Compose file, up to the file itself, is read from the mappings in which: every key of a field occurs at most once with a value that stands for the value of the field; required keys are present; of mutually exclusive sources exactly one is given; a missing key means the default; every other key is an extension starting with x- (or is ignored, for the structs without extensions). Leaving out an optional key or adding an extension never turns an accepted mapping into a rejected one. A mount is read as the struct its type names, wherever the type is placed. The structs that ignore other keys may also be given as the list of the values of their keys in order, and nothing else is accepted for a struct.", "quantifier": "every struct of the library, every mapping with any number of entries", "why_tests_cant": "the mappings are unbounded and nested; the interplay of flattened fields with unknown keys depends on every other key", "anchors": ["src/lib.rs: Compose", "src/service.rs: Service", "src/network.rs: Network", "src/volume.rs: Volume", "src/config.rs: Config", "src/secret.rs: Secret", "src/service/volumes/mount.rs: Mount, Common"]}
{"id": "C71", "title": "What is written is read back", "statement": "Serializing any struct of the library, up to a whole Compose file, and deserializing the result gives an equal value, if the scalars in it survive (durations in whole microseconds, no text that another variant would claim, no empty map where an empty list is the default).", "quantifier": "every value of every struct, with any number of services, networks, extensions", "why_tests_cant": "the values are unbounded trees over 86 service fields", "anchors": ["src/lib.rs: Compose, from_yaml_str, to_yaml_string", "src/service.rs: Service", "src/common.rs: Resource, ListOrMap"]}
{"id": "C72", "title": "The order of keys does not matter", "statement": "Reordering the keys of an accepted mapping gives an accepted mapping that is read as an equal struct.", "quantifier": "every struct, every mapping with distinct keys, every permutation", "why_tests_cant": "all permutations of unboundedly many keys", "anchors": ["src/service.rs: Service", "src/service/volumes/mount.rs: Mount", "src/config.rs: Source", "src/secret.rs: Source"]}
{"id": "C73", "title": "Writing is minimal and in a fixed order", "statement": "A struct is written as a mapping that has the keys of its fields in their order of declaration, then the extensions; no key twice; a field is left out exactly if it has its default, so an empty struct is written as an empty mapping.", "quantifier": "every value of every struct", "why_tests_cant": "all combinations of the fields that are set", "anchors": ["src/service.rs: Service", "src/lib.rs: Compose", "src/serde.rs: default_true, skip_true"]}
{"id": "C74", "title": "Reading never panics", "statement": "Deserializing a Compose file, or any struct of it, returns a value or an error but never panics.", "quantifier": "every serde value, including files no one would write", "why_tests_cant": "the panics need particular strings deep inside a file", "anchors": ["src/lib.rs: from_yaml_str", "src/duration.rs: parse", "src/service/ports.rs: ShortRanges::from_str, Range::size"]}
{"id": "C75", "title": "A Compose file means what the tables say, field by field", "statement": "For every struct, up to a whole Compose file: a mapping (or, for the structs that ignore other keys, a list of the values of its keys in order) is accepted exactly if every key of the struct has the kind of value documented for it (text of a certain syntax, number in a range, word of a list, duration, sequence, set, mapping, short or long form), absent keys allowed where the field has a default, and the value read has in every field exactly what that text or number denotes, or the documented default. A mapping means at most one value, and what is written for a value means that value.", "quantifier": "every struct of the library, every mapping, every value of every one of its fields", "why_tests_cant": "a wrong default, range, word or type in one of some 200 fields shows only for particular values of that field", "anchors": ["src/lib.rs: Compose", "src/service.rs: Service", "src/service/build.rs: Build", "src/service/deploy.rs: Deploy", "src/service/volumes/mount.rs: Mount", "src/network.rs: Network"]}
{"id": "C76", "title": "Loading, saving and loading again changes nothing", "statement": "Every file that can be loaded as a Compose file (or as any struct of one) is the same value after it has been saved and loaded again, any number of times, up to the order of extensions inside top-level resources; saving and loading never fails for it. Unlike the round trip of values built by a program, this holds without any condition on the values in between.", "quantifier": "every file that is accepted, with 64-bit integers; every number of repetitions", "why_tests_cant": "the accepted files are unbounded trees, and a single scalar form that reads back differently breaks it", "anchors": ["src/lib.rs: from_yaml_str, to_yaml_string", "src/service.rs: Service", "src/common.rs: ListOrMap, Resource", "src/service.rs: VolumesFrom"]}
{"id": "C77", "title": "Empty means nothing is written", "statement": "A struct reports that it is empty exactly if what would be written for it is a mapping without entries, apart from nested parts that are themselves empty (an empty ipam, a list of empty devices).", "quantifier": "every value of the 23 structs with is_empty, with any number of nested parts", "why_tests_cant": "the nested lists are unbounded, and a field forgotten in is_empty shows only when nothing else is set", "anchors": ["src/network.rs: Network::is_empty, Ipam::is_empty", "src/volume.rs: Volume::is_empty", "src/service/deploy.rs: Deploy::is_empty", "src/service/build.rs: Build::is_empty", "src/service/healthcheck.rs: Command::is_empty"]}
{"id": "C78", "title": "Equality, hashes and sets agree", "statement": "The types kept in sets are equal exactly if all their parts are (paths by components, extensions in order), equality is an equivalence, equal values have equal hashes, and a sequence read into a set keeps the first of all equal elements in order; an item-or-list compares lists as sets.", "quantifier": "every pair of ports, volumes, mounts, devices, ssh entries and paths, every sequence", "why_tests_cant": "pairs and sequences of unboundedly many values; hash and equality must agree on all of them", "anchors": ["src/service/ports.rs: Ports, Port", "src/service/volumes.rs: Volumes, ShortVolume", "src/service/volumes/mount.rs: Mount, Common", "src/service/device.rs: Device", "src/common.rs: ItemOrList"]}
{"id": "C79", "title": "Comparing with plain numbers", "statement": "A port range is equal to a number or to an inclusive range of numbers exactly if it has the same ports, and two ranges are equal exactly if they have the same ports; a device count or major/minor number is equal to a number exactly if it is written as that number; an inclusive range is converted exactly if it is not reversed.", "quantifier": "every range, made by the constructor or read from text, and every number", "why_tests_cant": "all pairs of ranges and numbers; equal values with different representations are rare", "anchors": ["src/service/ports.rs: PartialEq<u16> for Range, PartialEq<RangeInclusive<u16>> for Range, TryFrom<RangeInclusive<u16>> for Range", "src/service/deploy/resources.rs: PartialEq<u64> for Count", "src/service/device.rs: PartialEq<u16> for MajorMinorNumber"]}
{"id": "C80", "title": "Images compare as their parts do", "statement": "Two images are equal exactly if their registry, name, tag and digest agree; an image is equal to a text exactly if it was parsed from it; images are totally ordered as their texts are in a dictionary, consistently with equality and hash.", "quantifier": "every pair of images, parsed or changed by setters", "why_tests_cant": "all pairs of images and all histories of edits", "anchors": ["src/service/image.rs: PartialEq for Image, Ord for Image, Hash for Image"]}
{"id": "C81", "title": "A validation error tells what is wrong", "statement": "The text of a validation error says that the named resource, used in the named service (or, for a volume, across services), is not defined in the top-level field of its kind, and determines the kind of resource, its name and the service that uses it: two different errors never have the same text.", "quantifier": "every pair of validation errors, for all valid names", "why_tests_cant": "names are unbounded, and a text is ambiguous only for particular pairs of names", "anchors": ["src/lib.rs: Display for ValidationError, ResourceKind::as_str"]}
{"id": "C82", "title": "All texts of a value agree", "statement": "For every type that is displayed as text, to_string, conversion into String, conversion into Cow<str>, as_str and what is written to a file are the same text; keywords are displayed as they are written in a file, and different keywords differently.", "quantifier": "every value of the 14 types with own conversions and of the 13 enums without data", "why_tests_cant": "the conversions take different paths for different variants to save allocations", "anchors": ["src/network.rs: From<Driver> for String", "src/service/network_config.rs: From<NetworkMode> for String", "src/service/user.rs: From<User> for String", "src/service.rs: From<Link> for String, From<VolumesFrom> for String, Restart::as_str"]}
{"id": "C83", "title": "Options decide how a file is read, not the kind of input", "statement": "Reading from a string, a reader, bytes or a value with options is parsing, merging << keys if and only if asked for, and then reading the value; inputs that parse to the same value give the same file; options make no difference if there is nothing to merge; the last call that sets an option counts.", "quantifier": "every input, every combination and sequence of options, for any YAML parser whose direct reading agrees with reading by value", "why_tests_cant": "all inputs and all sequences of calls", "anchors": ["src/options.rs: Options"]}
{"id": "C84", "title": "Messages name all causes", "statement": "The message of an error raised while reading text inside a file consists of the text of the error and of all its causes, outermost first, separated by colons.", "quantifier": "every error with any number of causes", "why_tests_cant": "the length of a chain of causes is unbounded", "anchors": ["src/serde.rs: error_chain, ErrorSources"]}
{"id": "C85", "title": "The default of a struct is what the empty document says", "statement": "For every struct without required fields, reading an empty mapping gives the default value and writing the default gives an empty mapping; for a struct with a required field the same holds of the document with only this field at its default, and an empty mapping is an error; the default of every enum and scalar is read from, and written as, its documented text; what is read from an empty mapping counts as empty.", "quantifier": "every struct, enum and scalar type with a default, every interpretation of foreign types", "why_tests_cant": "there are two sources of defaults, the Default impl and serde's defaults of fields, which must agree on every field of every struct", "anchors": ["compose_spec_macros/src/default.rs: DefaultInput::expand", "src/service.rs: Service", "src/lib.rs: Compose", "src/common.rs: Default for ListOrMap", "src/common/short_or_long.rs: Default for ShortOrLong", "src/service/healthcheck.rs: Default for Healthcheck"]}
{"id": "C86", "title": "Constructors and conversions make what the document says", "statement": "A value made by a constructor or an infallible conversion (new, from_..., From) from its main parts is written as the document with just these parts, and this document is read as that value; everything else is at its default.", "quantifier": "every user, link, port, range, volume, mount, device, cache, config, secret, resource, environment file, include, limit, command, health check and context, for all arguments", "why_tests_cant": "every constructor is a third source of defaults, and must agree with the grammar of the text for all arguments", "anchors": ["src/service/user.rs: From<(Name, u32)> for User", "src/service/ports.rs: ShortPort::new, Port::new", "src/service/volumes.rs: ShortVolume::new, From<AbsolutePath> for Source", "src/service/volumes/mount.rs: Common::new, Tmpfs::from_target, From<BindPropagation> for BindOptions, Mount::kind", "src/service/build/cache.rs: From<CacheType> for Cache", "src/service.rs: From<VolumesFromSource> for VolumesFrom", "src/service/build/context.rs: From<Cow<str>> for Context"]}
{"id": "C87", "title": "Keys are found by their text", "statement": "Values of the types used as keys (identifiers, map keys, extension keys, hostnames, resource limits, user names, cache options, image tags, digests, names and images) that are made from texts are equal, equal to a text, hashed and ordered exactly as their texts; so a map filled with such keys has one entry per text, and getting the entry for a text gives the last value inserted under it, whatever the hash function.", "quantifier": "every pair of texts, every sequence of insertions, every hash function", "why_tests_cant": "lookup by text relies on Eq, Ord, Hash and Borrow agreeing on all pairs of values, and on all histories of insertions", "anchors": ["src/common/keys.rs: key_impls, Identifier, MapKey, ExtensionKey", "src/service/hostname.rs: Hostname", "src/service/ulimit.rs: Resource", "src/service/image.rs: Borrow<str> for Image", "src/service/image/tag.rs: Tag", "src/service/image/digest.rs: Digest", "src/service/image/name.rs: Name"]}
{"id": "C88", "title": "Converting between values, numbers, booleans and text", "statement": "A scalar value converts to a number exactly if it is one, is a boolean (0 or 1) or its text denotes one, and to u64, i64, f64 or bool exactly if the number it stands for is represented without loss by the target (as far as the target is offered); every other conversion is an error of the kind that applies; converting into a value and back gives the same value, and the text of a value is read as the same number or boolean.", "quantifier": "every value, number and text, every interpretation of float texts", "why_tests_cant": "all values of 64 bits and all texts", "anchors": ["src/common.rs: TryFrom<Value> for Number, TryFrom<Value> for u64, TryFrom<Number> for f64, TryFrom<StringOrNumber> for Number, FromStr for Number, From<Number> for Value, Display for Value"]}
{"id": "C89", "title": "Accessors tell what the document says", "statement": "The accessors is_..., as_..., into_... and the getters of network modes, IPC modes, users, caches, contexts, SSH entries, numbers, values, lists or maps, short or long syntaxes, resources, mounts and images give exactly the form and the parts of the text or document the value was read from: precisely one of a set of alternatives holds.", "quantifier": "every text and document that is read", "why_tests_cant": "there are unboundedly many texts, and a wrong accessor shows only for particular forms", "anchors": ["src/service/network_config.rs: NetworkMode", "src/service.rs: Ipc", "src/service/user.rs: IdOrName", "src/service/build/cache.rs: Cache", "src/service/build/ssh_auth.rs: SshAuth", "src/common.rs: Number, Value, StringOrNumber, ListOrMap, Resource", "src/common/short_or_long.rs: ShortOrLong", "src/service/volumes/mount.rs: Mount", "src/service/image.rs: Image::into_parts"]}
{"id": "C90", "title": "Every type is read from the documented kinds of values", "statement": "Every type is read from some value of each kind of value that is documented for it (null, boolean, integer, negative integer, float, string, list, mapping) and from no value of another kind; optional fields add null, lists take only lists, an item-or-list takes what the item takes and lists, a short-or-long syntax takes mappings only as the long syntax, structs take mappings, and lists where unknown keys are ignored; what is read is what the visitor of the type makes of the value that serde delivers.", "quantifier": "every value that serde can deliver, every type of a Compose file, every item type of the generic types", "why_tests_cant": "all values of every kind; the visitors have one method per kind and width and a missing one is only noticed for particular values", "anchors": ["src/serde.rs: ValueEnumVisitor, ItemOrListVisitor, FromStrVisitor, FromStrOrU16Visitor", "src/common/short_or_long.rs: Visitor", "src/common.rs: ListOrMapVisitor", "src/service/deploy/resources.rs: CpusVisitor, CountVisitor", "src/service/limit.rs: Visitor", "src/service/byte_value.rs: Visitor", "src/service/user.rs: Visitor", "src/serde/duration_option.rs", "src/serde/display_from_str_option.rs"]}
{"id": "C91", "title": "Null for an optional setting means that there is none", "statement": "In every struct and every mount, null for an optional setting (one of a type Option, or one of a choice of which none may be given) means exactly the same as leaving the key out, wherever in the mapping it is; null, where it is delivered as null, is an error for required settings, flags and collections (serde_yaml delivers a key with nothing behind it as an empty collection when a collection is asked for).", "quantifier": "every struct, every key, every mapping around it, every interpretation of foreign types", "why_tests_cant": "every field of every struct, with every combination and order of the other entries", "anchors": ["src/serde/duration_option.rs", "src/serde/display_from_str_option.rs", "src/serde/duration_us_option.rs", "src/service.rs: Service", "src/service/healthcheck.rs: Visitor for Healthcheck", "src/service/credential_spec.rs", "src/service/build/dockerfile.rs", "src/service/network_config.rs"]}
{"id": "C92", "title": "The reason given for a rejected text is true", "statement": "Whenever a text is rejected, what the error says about it (the empty part, the first character that is not allowed, the part that is not a number or is too big, the missing separator, the unknown, repeated or conflicting option, the sizes that differ) is true of the text, and the text quoted in the error is the part it is about.", "quantifier": "every text that is rejected as an identifier, key, project name, hostname, user, resource limit, image, tag, digest, cache, SSH entry, MAC address, port, range, volume, permission, device, cgroup rule, number of bytes, CPU set, link, mode or network, and every float that is rejected as a number of CPUs", "why_tests_cant": "there are unboundedly many rejected texts, with several reasons to choose from", "anchors": ["src/common/keys.rs: InvalidIdentifierError, InvalidMapKeyError", "src/service/image/name.rs: InvalidNamePartError", "src/service/image/digest.rs: InvalidDigestError", "src/service/build/cache.rs: ParseCacheError", "src/service/ports.rs: ParseRangeError, ParseShortRangesError, ParseShortPortError", "src/service/volumes.rs: ParseShortVolumeError", "src/service/device.rs: ParseDeviceError, ParseCgroupRuleError", "src/service/byte_value.rs: ParseByteValueError", "src/service/cpuset.rs: ParseCpuSetError", "src/service/deploy/resources.rs: InvalidCpusError", "src/service/network_config.rs: ParseMacAddressError"]}
{"id": "C93", "title": "The message shown for a rejected text is true and names the offending part", "statement": "Whenever a text is rejected while a file is read, the message that is shown is one of the documented messages in full, with its causes after colons; what it says is true of the text, and every character, part or number it quotes is the one of the text that is wrong.", "quantifier": "every text that is rejected as an identifier, key, project name, hostname, user, resource limit, image, tag, digest, cache, SSH entry, MAC address, port, range, volume, permission, device, cgroup rule, number of bytes, CPU set, duration, link, mode, network, platform or number, every value that does not convert to an integer, float or boolean, every integer that is rejected as a percentage, score or weight, and every parser of addresses", "why_tests_cant": "there are unboundedly many rejected texts; the message is assembled from nested errors and parts of the text", "anchors": ["src/serde.rs: error_chain", "src/common/keys.rs: InvalidIdentifierError, InvalidMapKeyError, InvalidExtensionKeyError", "src/name.rs: InvalidNameError", "src/duration.rs: ParseDurationError", "src/service/image.rs: InvalidImageError", "src/service/image/name.rs: InvalidNamePartError", "src/service/image/tag.rs: InvalidTagError", "src/service/image/digest.rs: InvalidDigestError", "src/service/build/cache.rs: ParseCacheError, InvalidCacheOptionError", "src/service/ports.rs: ParseRangeError, ParseShortRangesError, ParseShortPortError", "src/service/volumes.rs: ParseShortVolumeError, ParseSourceError", "src/service/device.rs: ParseDeviceError, ParseCgroupRuleError", "src/service/byte_value.rs: ParseByteValueError", "src/service/cpuset.rs: ParseCpuSetError", "src/service/network_config.rs: ParseMacAddressError, ParseNetworkModeError", "src/service/platform.rs: ParseError", "src/service.rs: RangeError", "src/common.rs: ParseNumberError, TryFromNumberError, TryFromValueError"]}
{"id": "C94", "title": "The message for a rejected text of one line has one line", "statement": "If a text without a line break is rejected, the message that is shown for it has no line break.", "quantifier": "every rejected text without a line break, of the kinds of C93", "why_tests_cant": "there are unboundedly many rejected texts, and the messages quote them", "anchors": ["src/serde.rs: error_chain", "src/service/image/digest.rs: InvalidDigestError", "src/duration.rs: ParseDurationError", "src/service/volumes.rs: ParseShortVolumeError"]}
{"id": "C95", "title": "Builds without overflow checks compute the same or what is documented", "statement": "In a release build, where integer arithmetic wraps around, port ranges, pairs of ranges, short ports, CPU sets and images behave as in a debug build wherever that does not panic; a pair made of ranges from the constructor still has as many host as container ports, whatever sequence of changes is applied (also with all 65536 ports), and so has a pair read from a text. Moving a range wraps around from the last port to port 0, can be undone, and leaves a range with its first port below its last exactly if all or none of its ports wrap.", "quantifier": "every range, pair of ranges, operation sequence and text; every image shorter than 2^63 bytes", "why_tests_cant": "tests run in a debug build, and wrapping shows only for particular numbers", "anchors": ["src/service/ports.rs: Range::size, Add<u16> for Range, Sub<u16> for Range, range_size_eq, ShortRanges::new, ShortRanges::replace_host, ShortRanges::replace_container, ShortRanges::from_str, ShortPort::from_str", "src/service/cpuset.rs: Display for CpuSet", "src/service/image.rs: Image::name_end, Image::set_name, Image::set_registry, Image::set_tag_or_digest"]}
{"id": "C96", "title": "Validation judges a file by what its document says", "statement": "For a file read from a document, validate_networks, validate_configs and validate_secrets accept exactly if every name that the document gives in a service (in a sequence or a mapping, in the short or the long syntax) has an entry in the section of that name, and otherwise name the first service of the document with a name that has none and the first such name in it; validate_volumes reports only an undeclared volume that two services of the document mount or one mounts twice, and rejects every such document, naming such a volume at the first service of the document that makes a volume shared; validate_all accepts every document in which everything named is declared; writing a file and reading it again does not change any of these answers.", "quantifier": "every document that is read as a Compose file, with all its services, syntaxes and repeated keys, and every valid file that is written", "why_tests_cant": "documents are unbounded in the number of services, names and forms; the answer depends on reading and validation together", "anchors": ["src/lib.rs: Compose, Compose::validate_all, validate_networks, validate_volumes, validate_configs, validate_secrets", "src/service.rs: Service", "src/service/network_config.rs: NetworkConfig", "src/service/config_or_secret.rs: ConfigOrSecret", "src/service/volumes.rs: ShortVolume, named_volumes_iter", "src/service/volumes/mount.rs: Mount"]}
{"id": "C97", "title": "The short syntax of a setting means what its long syntax says", "statement": "Rewriting a file so that every setting that has a short and a long syntax is in long syntax (build contexts, configs, secrets, dependencies, environment files, networks, ports, ulimits, volumes and included files) gives a file that is read exactly if the original is; what is read is what the library's conversions make of the settings, everything else is the same, and nothing is in short form any more. Networks, configs and secrets are then validated with the same result, and a file that was valid stays valid.", "quantifier": "every document, with any number of services and settings in any mixture of the two syntaxes", "why_tests_cant": "documents are unbounded; the two syntaxes of each setting are read by different code, and the sets they are collected in merge equal items", "anchors": ["src/common/short_or_long.rs: ShortOrLong, AsShort", "compose_spec_macros/src/as_short.rs: FromShort", "src/service/build.rs: Build", "src/service/config_or_secret.rs: ConfigOrSecret", "src/service/env_file.rs: EnvFile, Config, EnvFile::into_list", "src/service.rs: DependsOn, Dependency", "src/service/network_config.rs: Networks", "src/service/ports.rs: ShortPort::into_long_iter, into_long_iter", "src/service/volumes.rs: ShortVolume::into_long, into_long_iter", "src/service/ulimit.rs: Ulimit", "src/include.rs: Include"]}
{"id": "C98", "title": "The order of keys does not matter anywhere in a file", "statement": "If entries of mappings change places anywhere in a document, at any depth (none of them repeated), the document is read as a struct, mount, resource, service or file exactly if it was before, and writing what has been read gives the same document as before up to the order of entries.", "quantifier": "every document, every number of changes of order at every depth, every interpretation of foreign types", "why_tests_cant": "documents are unbounded in depth and size; values are read entry by entry by hand-written visitors and collected in sets with hand-written equality", "anchors": ["src/lib.rs: Compose", "src/service.rs: Service", "src/service/healthcheck.rs: Visitor for Healthcheck", "src/service/ports.rs: PartialEq for Port", "src/service/volumes/mount.rs: PartialEq for Common, Mount", "src/service/credential_spec.rs", "src/common.rs: Resource, ListOrMap", "src/service/network_config.rs: NetworkConfig", "src/service/build/dockerfile.rs", "src/service/ulimit.rs: Ulimits"]}
{"id": "C99", "title": "Editing one setting changes nothing else", "statement": "If the setting at one path of keys in a document is changed, added or removed, and both documents are read, then what is written of them differs at most in the setting at that path: all other entries of every mapping on the way to it are written as before. This holds for every struct, mount and top-level resource (also where it becomes external), and for services and files where the setting is not the test of a health check, which alone can add or remove another setting (disable).", "quantifier": "every pair of documents that differ in one setting, at every depth of keys, whatever the two values are; every interpretation of foreign types", "why_tests_cant": "documents, paths and values are unbounded; values are read by hand-written visitors, flattened structs and maps that look at several keys at once", "anchors": ["src/lib.rs: Compose", "src/service.rs: Service", "src/service/healthcheck.rs: Healthcheck", "src/common.rs: Resource, ListOrMap, Extensions", "src/service/volumes/mount.rs: Mount", "src/service/network_config.rs: NetworkConfig", "src/service/build/dockerfile.rs", "src/service/credential_spec.rs", "src/config.rs: Source", "src/secret.rs: Source"]}
{"id": "C100", "title": "A wrong key is reported wherever it is", "statement": "If a Compose file is read, then every mapping in it, at whatever depth, follows the rules about keys of the setting it stands for (in the file itself, services, build, deploy and its parts, mounts, ports, networks and so on: 47 places): all keys are strings, no documented key is given twice, required keys are given, of alternatives exactly one is given, and every other key is an extension unless that kind of mapping is documented to ignore unknown keys (C70). A mount has the keys of its type; a top-level network, volume, config or secret has the keys of its kind or is external with at most a name, and only there may a key be repeated, the last value counting.", "quantifier": "every document that is read as a Compose file and every place in it, through any number of services, items and entries; every interpretation of foreign types", "why_tests_cant": "documents are unbounded, and a misspelt key can be at any depth, behind short or long syntaxes, optional values, sets and flattened structs", "anchors": ["src/lib.rs: Compose", "src/service.rs: Service", "src/service/build.rs: Build", "src/service/deploy.rs: Deploy", "src/service/volumes/mount.rs: Mount", "src/service/ports.rs: Port", "src/service/network_config.rs: NetworkConfig", "src/service/healthcheck.rs: Healthcheck", "src/service/credential_spec.rs: CredentialSpec", "src/common.rs: Resource, Extensions", "src/network.rs: Network, Ipam"]}
{"id": "C101", "title": "A list of values means the mapping with the keys in order", "statement": "The nine structs that ignore unknown keys (included files, I/O limits and weights, develop, environment files, dependencies, extends) are also read from a sequence: exactly if it has no more values than the struct has keys and the mapping that gives these values to the keys in their documented order is read, and then as the same value. No other struct is read from a sequence, and everything else is read as the mapping it must be. A whole file with such sequences anywhere in its services is read exactly if, and as, the file in which they are replaced by mappings.", "quantifier": "every struct, every sequence of values of any length and kind, every interpretation of foreign types", "why_tests_cant": "sequences are unbounded in length and in their values, and the order of the fields in the source decides their meaning", "anchors": ["src/include.rs: Include", "src/service/blkio_config.rs: BlkioConfig, WeightDevice, BpsLimit, IopsLimit", "src/service/develop.rs: Develop", "src/service/env_file.rs: Config", "src/service.rs: Dependency, Extends"]}
{"id": "C102", "title": "IP addresses mean what their standard texts say", "statement": "An IPv4 address in a file (host of a port, DNS server, extra host, gateway, address in a network) is read exactly from four decimal numbers below 256 without leading zeros with dots between them; an IPv6 address exactly from the texts of RFC 4291 (eight groups of one to four hexadecimal digits, :: once for one or more zero groups, an IPv4 address for the last two groups); where both are allowed a text is never both. What is written is the text recommended by RFC 5952 and is read as the same address; short ports and extra hosts with any address, with or without brackets and with either separator, are read back.", "quantifier": "every text, every address, every list of extra hosts and every short port", "why_tests_cant": "there are 2^128 addresses, each with many texts, and infinitely many texts that are not addresses", "anchors": ["src/service/ports.rs: ShortPort::from_str, Display for ShortPort", "src/service.rs: extra_hosts, strip_brackets, Service::dns", "src/network.rs: IpamConfig", "src/service/network_config.rs: Network", "src/service/build.rs: Build::extra_hosts"]}
{"id": "C103", "title": "Following the messages of validation makes a file valid, and valid files stay valid with less in them", "statement": "What validation reports is used by a service (by the service it names, if it names one) and is not declared. Whoever declares what is reported and validates again, as often as it takes, has a valid file after no more steps than there are uses of names in the services, with the services unchanged, no declaration lost and no name declared that nothing uses. A valid file stays valid if services are left out or reordered, if things are taken away from services, and if declarations are added. Two valid files put together are valid exactly if each volume that both mount is declared in one of them.", "quantifier": "every compose file, every number of repairs, every pair of files", "why_tests_cant": "the claims are about sequences of edits and validations of any length, on any file", "anchors": ["src/lib.rs: Compose::validate_all, validate_networks, validate_volumes, validate_configs, validate_secrets, ValidationError", "src/service.rs: Service::validate_networks, validate_volumes, validate_configs, validate_secrets"]}
{"id": "C104", "title": "The macros accept exactly the inputs they are documented for", "statement": "The derive macros AsShort and FromShort accept a struct exactly if one field is marked short (and nothing else), and every other field has at most one if_fn and one default, each with an expression; they then use for each field, in order, the function given, or the one that fits its type. Default accepts at most one `default = value` per field; the serde derives accept only transparent and at most one `expecting`. platforms! accepts exactly one definition each of Platform, Os, Arch, ParseError and TryFromArchError, in any order, and then a table in which each listed architecture is defined and each defined one is listed; it reports each one for which this does not hold, and its expansion never panics.", "quantifier": "every list of fields, attributes, entries and definitions", "why_tests_cant": "the inputs are token trees of any length; the repository has only a handful of uses, all of them accepted", "anchors": ["compose_spec_macros/src/as_short.rs: Input::from_syn, Attribute::from_syn, option_type, is_bool", "compose_spec_macros/src/default.rs: Field::from_syn", "compose_spec_macros/src/serde.rs: parse_expecting", "compose_spec_macros/src/platforms.rs: Input::parse, Input::expand", "compose_spec_macros/src/platforms/arch.rs: Arch::to_map, Map::get"]}
{"id": "C105", "title": "The error for an unknown definition in platforms! reads as a list of the expected names", "statement": "For the names that were asked for, the message is `expected A or B or C`, with `or` between the names only.", "quantifier": "every list of names", "why_tests_cant": "the message is built in a loop over any number of names; no test looks at it", "anchors": ["compose_spec_macros/src/platforms/prefix.rs: PeekIdent::error"]}
{"id": "C106", "title": "Decimal numbers in texts are the nearest doubles, and doubles are written as the shortest decimal numbers", "statement": "A text (an item of a list of variables or labels, a number of CPUs, a value that is converted to a number) is read as a double exactly if it is an optional sign and a decimal number, with at most one point and perhaps an exponent, or inf, infinity or nan in any case; it is then the double nearest to that number, the even one of two, infinity beyond the largest. A double is written as the shortest decimal number that is read as it, so it is read as the same double (any NaN as one NaN). As a number among other values, a double keeps being one exactly if it is not a whole number: whole numbers are written without a point and are read as integers, the same ones below 2^53 and always ones nearest to the same double, or are refused beyond the range of integers. true, false and IP addresses are never read as doubles, so what C56 and C63 assume of f64 holds.", "quantifier": "every text, every double, every rational number", "why_tests_cant": "there are 2^64 doubles and infinitely many texts; the rounding of each depends on all of its digits", "anchors": ["src/common.rs: Number::from_str, Display for Number, Value::from_str", "src/service/deploy/resources.rs: CpusVisitor::visit_str", "src/service.rs: extra_hosts"]}
{"id": "C107", "title": "Comparisons of numbers agree with the numbers", "statement": "Percentages, adjustments of the OOM score, weights, limits and MAC addresses are ordered as the numbers that they hold, an unlimited amount above every amount, the first byte of an address the most significant; they are equal to a plain number exactly if they hold it. Amounts of CPUs are ordered as the numbers that their doubles denote; any two can be compared, and equal ones hold the same double. Compared with a double, an amount is compared with the number, with infinity, or, if it is not a number, not at all.", "quantifier": "every pair of values, every double", "why_tests_cant": "comparison of doubles is by sign, exponent and fraction; transitivity and agreement with the numbers is a claim about all pairs", "anchors": ["src/service.rs: Percent, OomScoreAdj, PartialEq<u8> for Percent, PartialEq<i16> for OomScoreAdj", "src/service/blkio_config.rs: Weight, PartialEq<u16> for Weight", "src/service/deploy/resources.rs: Cpus, PartialEq<f64> for Cpus, PartialOrd<f64> for Cpus", "src/service/limit.rs: Limit", "src/service/network_config.rs: MacAddress"]}
{"id": "C108", "title": "The derived implementations ask and set every field", "statement": "For every struct that AsShort accepts, as_short is an `if` whose condition asks each other field its question, in the order of the struct, and which returns the short field if all hold and None if not. For every struct that FromShort accepts, from sets each field of the struct exactly once: the short field to the argument (in Some if it is optional), any other to the result of the function given or to its default value. Default sets the fields in order, each to the expression given or to its default value.", "quantifier": "every list of fields, types and attributes", "why_tests_cant": "the expansions are repetitions over any number of fields; the repository has only a handful of uses", "anchors": ["compose_spec_macros/src/as_short.rs: Input::impl_as_short, Input::impl_from_short", "compose_spec_macros/src/default.rs: Input::from_syn, Input::expand, Field::expand"]}
{"id": "C109", "title": "Paths that are not Unicode are kept, or writing them fails", "statement": "On Unix a path is any sequence of bytes. A value with such a path (a path setting, a build context, a volume, a device, an SSH entry) is either written as a text that is read as the same value, or writing it fails. A path setting and a build context fail exactly if the path is not Unicode, and a context is then given back by into_string. AbsolutePath and HostPath accept paths by their first bytes, Unicode or not.", "quantifier": "every sequence of bytes as a path, every volume, device, SSH entry and build context with such paths", "why_tests_cant": "there are infinitely many byte sequences, most of them not Unicode; the repository tests ASCII paths only", "anchors": ["src/service/volumes.rs: Display for ShortVolume, Display for Source, AbsolutePath::new, HostPath::new", "src/service/device.rs: Display for Device", "src/service/build/ssh_auth.rs: Display for Id, Id::new", "src/service/build/context.rs: Context::into_string, Serialize for Context"]}
{"id": "C110", "title": "Paths are equal and ordered folder by folder, and the short syntax comes before the long one", "statement": "Two paths (absolute paths in a container, paths on the host) are equal exactly if both or none begin at the root, both or none with the folder ., and they have the same names between the slashes, where repeated slashes, a slash at the end and . in the middle do not count, but .. does. They are ordered by the first part that differs: the root, then ., then .., then names as in a dictionary; a folder comes before what is in it, and the files of a folder are in the order of their names. The order is total and two paths are neither before nor after each other exactly if they are equal. Values in short syntax come before those in long syntax, and if the values of each syntax are ordered then all are.", "quantifier": "every pair and triple of texts as paths, every type with a short and a long syntax", "why_tests_cant": "agreement of order and equality, and transitivity, are claims about all pairs and triples of texts", "anchors": ["src/service/volumes.rs: AbsolutePath, HostPath", "src/common/short_or_long.rs: ShortOrLong"]}
{"id": "C111", "title": "Numbers in scientific notation keep their value", "statement": "format!(\"{n:e}\") and {n:E} of a Number write scientific notation: one digit, perhaps a point and more digits without a zero at the end, the letter, and a power of ten; only 0 begins with 0. An integer is written exactly, with a minus sign if it is negative; a double as the shortest decimal number that is read as it, or inf or NaN. There is only one such text of a number. Reading the text as a Number gives a double, never an integer: the one nearest to an integer, and the same double for a double (one NaN for any NaN), also for whole numbers, other than with {n}.", "quantifier": "every number, every text in scientific notation", "why_tests_cant": "there are 2^64 integers and doubles; zeros at the end and the exponent depend on all digits", "anchors": ["src/common.rs: LowerExp for Number, UpperExp for Number, Number::from_str"]}
{"id": "C112", "title": "Validation treats names as names: renaming consistently changes nothing else", "statement": "If a file is rewritten so that every network, volume, config and secret gets another name, the same one wherever it is used or declared, and different names stay different, then each of the four validations and validate_all give the same answer: the new file is accepted exactly if the old one was, and otherwise the error names the new name of the same resource and the new name of the same service. Nothing else counts: two files whose services use the same names in the same order and that declare the same names get the same answer, whatever else is in them and whichever syntax they use. If different names become the same name, a valid file stays valid as long as every volume that a service mounts is declared.", "quantifier": "every file, every renaming of services and resources, everything else in the files", "why_tests_cant": "there are infinitely many renamings; a test of some names does not show that no other name is treated in a special way", "anchors": ["src/lib.rs: Compose::validate_all, Compose::validate_networks, Compose::validate_volumes, Compose::validate_configs, Compose::validate_secrets", "src/service.rs: Service::validate_networks, Service::validate_configs, Service::validate_secrets"]}
{"id": "C113", "title": "With merging turned on, fragments are written out", "statement": "With apply_merge(true) a file is read as if all fragments had been written out: in every mapping, from the outside to the inside, the key << is replaced by the entries of the mapping, or of the mappings of the sequence, behind it; a key keeps the value the mapping has itself, otherwise it has that of the first fragment that has the key, and nothing else is added, lost or changed but for the order of keys. A file is accepted exactly if this is possible; otherwise some << key has a value that is neither a mapping nor a sequence of mappings, and the error says which. A file without << keys is read as with apply_merge(false). Afterwards no << key is left and merging again changes nothing.", "quantifier": "every document, of any depth, with any number of fragments", "why_tests_cant": "fragments can be nested anywhere and overlap in any way; examples only show some of the ways", "anchors": ["src/options.rs: Options::apply_merge, Options::from_yaml_value", "src/lib.rs: documentation of fragments"]}
