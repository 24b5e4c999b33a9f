import Verif.Proofs.Equality
import Verif.Spec.Schemas
import Verif.Proofs.Codecs
import Verif.Proofs.Structs
import Verif.Proofs.Derive
import Verif.Props.Resource

/- The functions that read the types of the fields accept exactly the values that denote something, and give what they
denote. -/

namespace Proofs
open Rust Compose Compose.Derive Compose.Codecs Spec Spec.Meaning
open Props hiding mapping entriesOf_mapping

/-- The values that are read, and what they are read as. -/
class Denotes {α : Type} (c : Codec α) (m : Meaning α) : Prop where
  iff : ∀ v x, c.de v = .ok x ↔ m v x

theorem entries_iff {v : Content} {es : List (Str × Content)} : entriesOf v = some es ↔ Entries v es := entriesOf_iff

section
variable {α : Type} {c : Codec α} {m : Meaning α}

/-! ### Collections -/

instance [h : Denotes c m] : Denotes (option c) (orNull m) where
  iff v o := by
    unfold orNull
    rw [show (∃ x, v ≠ .unit ∧ m v x ∧ o = some x) ↔ ∃ x, v ≠ .unit ∧ c.de v = .ok x ∧ o = some x by simp only [h.iff]]
    cases v <;> simp [option, eq_comm (a := o)]

theorem readAll_iff [h : Denotes c m] {vs : List Content} {l : List α} : readAll c.de vs = .ok l ↔ List.Forall₂ m vs l := by
  induction vs generalizing l with
  | nil => simp [readAll, eq_comm]
  | cons v vs ih =>
    simp only [readAll, Outcome.bind_eq_ok, Outcome.map_eq_ok, ih, h.iff, List.forall₂_cons_left_iff]
    constructor
    · rintro ⟨x, h1, xs, h2, rfl⟩; exact ⟨x, xs, h1, h2, rfl⟩
    · rintro ⟨x, xs, h1, h2, rfl⟩; exact ⟨x, h1, xs, h2, rfl⟩

instance [h : Denotes c m] : Denotes (list c) (items m) where
  iff v l := by
    unfold items
    cases v <;> simp [list, readAll_iff (m := m)]

theorem distinctBy_iff {e : RustEq α} {same : α → α → Prop} [EqIs e same] [h : Denotes c m] {vs : List Content} {l : List α} :
    (readAll c.de vs).map IndexSet.collectNew = .ok l ↔ distinctBy same m (.seq vs) l := by
  unfold distinctBy items
  simp only [Outcome.map_eq_ok, readAll_iff (m := m), collectNew_eq e same, Content.seq.injEq]
  constructor
  · rintro ⟨a, h1, rfl⟩; exact ⟨a, ⟨vs, rfl, h1⟩, rfl⟩
  · rintro ⟨a, ⟨_, rfl, h1⟩, rfl⟩; exact ⟨a, h1, rfl⟩

theorem not_distinctBy {same : α → α → Prop} {v : Content} {l : List α} (h : ∀ vs, v ≠ .seq vs) : ¬ distinctBy same m v l := by
  rintro ⟨_, ⟨vs, rfl, _⟩, _⟩; exact h vs rfl

instance {e : RustEq α} {same : α → α → Prop} [EqIs e same] [h : Denotes c m] : Denotes (set c) (distinctBy same m) where
  iff v l := by
    cases v with
    | seq vs => exact distinctBy_iff
    | _ => exact iff_of_false (by simp [Codecs.set]) (not_distinctBy nofun)

instance [DecidableEq α] [h : Denotes c m] : Denotes (set c) (distinct m) :=
  inferInstanceAs (Denotes (set c) (distinctBy Eq m))

/-- The keys that are read, as themselves. -/
class DenotesKey (k : Key) (K : Str → Prop) : Prop where
  iff : ∀ s t, k.parse s = some t ↔ K s ∧ t = s

theorem readEntries_iff {k : Key} {K : Str → Prop} [hk : DenotesKey k K] [h : Denotes c m] {es : List (Str × Content)}
    {l : List (Str × α)} :
    readEntries k.parse c.de es = .ok l ↔ List.Forall₂ (fun e a => K e.1 ∧ a.1 = e.1 ∧ m e.2 a.2) es l := by
  induction es generalizing l with
  | nil => simp [readEntries, eq_comm]
  | cons e es ih =>
    obtain ⟨k, v⟩ := e
    simp only [readEntries, Outcome.bind_eq_ok, Outcome.map_eq_ok, Outcome.ofOption_eq_ok, hk.iff, h.iff, ih,
      List.forall₂_cons_left_iff]
    constructor
    · rintro ⟨_, ⟨h1, rfl⟩, x, h2, xs, h3, rfl⟩; exact ⟨(_, x), xs, ⟨h1, rfl, h2⟩, h3, rfl⟩
    · rintro ⟨⟨k', x⟩, xs, ⟨h1, h2, h4⟩, h3, rfl⟩
      obtain rfl : k' = k := h2
      exact ⟨_, ⟨h1, rfl⟩, x, h4, xs, h3, rfl⟩

instance {k : Key} {K : Str → Prop} [hk : DenotesKey k K] [h : Denotes c m] : Denotes (map k c) (entries K m) where
  iff v l := by
    unfold entries
    simp only [map, Outcome.map_eq_ok, Outcome.bind_eq_ok, Outcome.ofOption_eq_ok, entries_iff,
      readEntries_iff (m := m) (K := K), table_iff]
    constructor
    · rintro ⟨a, ⟨es, h1, h2⟩, rfl⟩; exact ⟨es, a, h1, h2, rfl⟩
    · rintro ⟨es, a, h1, h2, rfl⟩; exact ⟨a, ⟨es, h1, h2⟩, rfl⟩

instance {β : Type} {l : Codec β} {n : Meaning β} [h1 : Denotes c m] [h2 : Denotes l n] :
    Denotes (Codecs.shortOrLong c l) (Meaning.shortOrLong m n) where
  iff v x := by
    unfold Meaning.shortOrLong
    simp only [← h1.iff, ← h2.iff]
    cases v <;> simp [Codecs.shortOrLong, eq_comm (a := x)]

instance {e : RustEq α} {same : α → α → Prop} [EqIs e same] [h : Denotes c m] :
    Denotes (Codecs.itemOrList c) (Meaning.itemOrList same m) where
  iff v x := by
    unfold Meaning.itemOrList
    cases v with
    | seq vs =>
      have := fun l => distinctBy_iff (e := e) (same := same) (c := c) (m := m) (vs := vs) (l := l)
      simp only [Outcome.map_eq_ok] at this
      simp only [Codecs.itemOrList, Outcome.map_eq_ok, ← this]
      constructor
      · rintro ⟨a, h1, rfl⟩; exact .inl ⟨_, ⟨a, h1, rfl⟩, rfl⟩
      · rintro (⟨_, ⟨a, h1, rfl⟩, rfl⟩ | ⟨y, h2, _⟩)
        · exact ⟨a, h1, rfl⟩
        · exact absurd ⟨vs, rfl⟩ h2
    | _ => simp [Codecs.itemOrList, distinctBy, items, ← h.iff, eq_comm (a := x)]

/-! ### Scalars -/

theorem text_denotes {parse : Str → Option α} {s : α → Str} {valid : α → Prop} {P : Str → α → Prop}
    (h : ∀ s x, parse s = some x ↔ P s x) : Denotes (Codecs.text parse s valid) (Meaning.text P) where
  iff v x := by
    unfold Meaning.text
    cases v <;> simp [Codecs.text, h]

theorem valid_denotes {parse : Str → Option Str} {s : Str → Str} {valid : Str → Prop} {P : Str → Prop}
    (h : ∀ s x, parse s = some x ↔ P s ∧ x = s) : Denotes (Codecs.text parse s valid) (Meaning.valid P) where
  iff v x := by
    unfold Meaning.valid
    cases v <;> simp [Codecs.text, h]
    constructor
    · rintro ⟨h, rfl⟩; exact ⟨rfl, h⟩
    · rintro ⟨rfl, h⟩; exact ⟨h, rfl⟩

theorem plain_denotes {ser : α → Content} {de : Content → Option α} {valid : α → Prop}
    (h : ∀ v x, de v = some x ↔ m v x) : Denotes (plain ser de valid) m where
  iff v x := by simp [plain, h]

theorem toOption_iff {ε : Type} {x : Except ε α} {a : α} : x.toOption = some a ↔ x = .ok a := by
  cases x <;> simp [Except.toOption]

theorem mem_of_lookup {words : List (Str × α)} (hn : (words.map (·.1)).Nodup) {s : Str} {x : α} :
    words.lookup s = some x ↔ (s, x) ∈ words := by
  induction words with
  | nil => simp
  | cons w words ih =>
    obtain ⟨k, y⟩ := w
    simp only [List.map_cons, List.nodup_cons] at hn
    rw [List.lookup_cons]
    by_cases h : s = k
    · subst h
      simp only [BEq.rfl, List.mem_cons, Prod.mk.injEq, true_and]
      constructor
      · rintro h; exact .inl (Option.some.inj h).symm
      · rintro (rfl | h)
        · rfl
        · exact absurd (List.mem_map.2 ⟨_, h, rfl⟩) hn.1
    · have : (s == k) = false := by simpa using h
      simp [this, ih hn.2, h]

theorem keyword_denotes {write : α → Str} {words : List (Str × α)} {table : List (String × α)}
    (h : words = table.map fun e => (e.1.toList, e.2)) (hn : (words.map (·.1)).Nodup) :
    Denotes (keyword write words) (word table) where
  iff v x := by
    unfold word keyword
    cases v with
    | str s =>
      simp only [Codecs.text, Outcome.ofOption_eq_ok, mem_of_lookup hn, Content.str.injEq]
      rw [h, List.mem_map]
      constructor
      · rintro ⟨⟨w, y⟩, h1, h2⟩; cases h2; exact ⟨w, h1, rfl⟩
      · rintro ⟨w, h1, rfl⟩; exact ⟨_, h1, rfl⟩
    | _ => simp [Codecs.text]
end

instance : Denotes str string where
  iff v x := by
    unfold string
    cases v <;> simp [str, Codecs.text]

instance : Denotes bool boolean where
  iff v x := by
    unfold boolean
    cases v <;> simp [Codecs.bool, plain, deBool]

theorem deUnsigned_iff {max : Nat} {v : Content} {n : Nat} : deUnsigned max v = some n ↔ natural max v n := by
  unfold natural IsInteger
  cases v <;> simp [deUnsigned]
  · constructor
    · rintro ⟨h, rfl⟩; exact ⟨rfl, h⟩
    · rintro ⟨rfl, h⟩; exact ⟨h, rfl⟩
  · omega

theorem unsigned_denotes (max : Nat) : Denotes (unsigned max) (natural max) := plain_denotes fun _ _ => deUnsigned_iff

instance : Denotes u16 (natural 65535) := unsigned_denotes _
instance : Denotes u32 (natural (2 ^ 32 - 1)) := unsigned_denotes _
instance : Denotes u64 (natural (2 ^ 64 - 1)) := unsigned_denotes _

instance {t : TextType} : Denotes (Codecs.foreign t) (Meaning.foreign t) := text_denotes fun _ _ => Iff.rfl

instance : Denotes identifier (valid Identifier) := valid_denotes fun s x => toOption_iff.trans (C01_identifier_accepts s x)
instance : Denotes hostname (valid Hostname) := valid_denotes fun s x => toOption_iff.trans (C04_hostname_accepts s x)
instance : Denotes projectName (valid ProjectName) :=
  valid_denotes fun s x => toOption_iff.trans (C02_project_name_accepts s x)
instance : Denotes absolutePath (valid AbsolutePath) := valid_denotes fun s x => toOption_iff.trans (C36_absolute_path_new s x)
instance : Denotes hostPath (valid HostPath) := valid_denotes fun s x => toOption_iff.trans (C36_host_path_new s x)

instance : DenotesKey identifierKey Identifier := ⟨fun s x => toOption_iff.trans (C01_identifier_accepts s x)⟩
instance : DenotesKey mapKey MapKey := ⟨fun s x => toOption_iff.trans (C03_map_key_accepts s x)⟩
instance : DenotesKey hostnameKey Hostname := ⟨fun s x => toOption_iff.trans (C04_hostname_accepts s x)⟩
instance : DenotesKey ulimitKey UlimitResource := ⟨fun s x => toOption_iff.trans (C06_ulimit_resource_accepts s x)⟩

instance : Denotes Codecs.percent Meaning.percent := plain_denotes fun v _ => (C52_bounded_deserialize v).1 _
instance : Denotes Codecs.oomScoreAdj Meaning.oomScoreAdj := plain_denotes fun v _ => (C52_bounded_deserialize v).2.1 _
instance : Denotes Codecs.weight Meaning.weight := plain_denotes fun v w => by
  rw [(C52_bounded_deserialize v).2.2]
  exact ⟨fun ⟨a, b, c⟩ => ⟨⟨a, c⟩, b⟩, fun ⟨⟨a, c⟩, b⟩ => ⟨a, b, c⟩⟩

instance {E : Env} : Denotes (Codecs.cpus E) (Meaning.cpus E.float) := plain_denotes fun v c => by
  rw [C67_cpus_deserialize_partial]
  unfold Meaning.cpus
  constructor
  · rintro ⟨x, h1, h2⟩
    obtain ⟨h3, q, h4, h5, h6⟩ := ((C65_cpus_new x).1 c).1 h2
    obtain rfl : c.val = x := h3
    exact ⟨h1, ⟨q, h4, h5⟩, h6⟩
  · rintro ⟨h1, ⟨q, h4, h5⟩, h6⟩
    exact ⟨c.val, h1, ((C65_cpus_new _).1 c).2 ⟨rfl, q, h4, h5, h6⟩⟩

theorem null_not_duration {r : Option Duration} : deserializeDuration .unit ≠ .ok r := by
  rw [ne_eq, C68_duration_field.2]
  rintro (⟨n, d, h | h, _⟩ | ⟨s, d, h, _⟩)
  · cases h
  · cases h.2
  · cases h

instance : Denotes Codecs.duration Meaning.duration where
  iff v o := by
    unfold Meaning.duration
    constructor
    · intro h
      cases o with
      | none =>
        exfalso
        rcases (C68_duration_field.2 v none).1 h with ⟨n, d, _, _, _, h, _⟩ | ⟨s, d, _, _, h⟩ <;> cases h
      | some d => exact ⟨d, rfl, durationValue_iff.1 h⟩
    · rintro ⟨d, rfl, h⟩; exact durationValue_iff.2 h

theorem fromMicros_iff {n : Nat} {d : Duration} :
    Duration.fromMicros n = d ↔ d.nanos < 10 ^ 9 ∧ d.secs * 10 ^ 9 + d.nanos = n * 1000 := by
  obtain ⟨s, m⟩ := d
  simp only [Duration.fromMicros, Duration.mk.injEq]
  omega

instance : Denotes Codecs.durationUs Meaning.durationUs := plain_denotes fun v o => by
  unfold Meaning.durationUs
  simp only [← deUnsigned_iff]
  have hu : u64Max = 2 ^ 64 - 1 := rfl
  simp only [← hu, ← fromMicros_iff]
  cases v with
  | unit => simp [deserializeDurationUs, deUnsigned, eq_comm (a := o)]
  | _ =>
    simp only [deserializeDurationUs, Option.map_eq_some_iff, reduceCtorEq, false_and, false_or]
    constructor
    · rintro ⟨n, h1, rfl⟩; exact ⟨n, _, h1, rfl, rfl⟩
    · rintro ⟨n, d, h1, rfl, rfl⟩; exact ⟨n, h1, rfl⟩

theorem byteText_iff {s : Str} {b : ByteValue} : (ByteValue.fromStr s).toOption = some b ↔ ByteText s b :=
  toOption_iff.trans (C10_byte_value_accepts s b)

theorem byteValue_iff {v : Content} {b : ByteValue} : ByteValue.deserialize v = some b ↔ Meaning.byteValue v b := by
  unfold Meaning.byteValue Meaning.text
  cases v <;> simp [ByteValue.deserialize, byteText_iff, eq_comm (a := b)]

instance : Denotes Codecs.byteValue Meaning.byteValue := plain_denotes fun _ _ => byteValue_iff

theorem minusOne_not_bytes (b : ByteValue) : ¬ ByteText "-1".toList b := by
  rw [← byteText_iff]
  have : (ByteValue.fromStr "-1".toList).toOption = none := by decide
  rw [this]; exact nofun

instance : Denotes Codecs.byteLimit Meaning.byteLimit := plain_denotes fun v l => by
  unfold Meaning.byteLimit minusOne Meaning.text IsInteger
  cases v with
  | i64 i =>
    by_cases h1 : i ≤ -2
    · simp [Limit.deserialize, h1]
      constructor
      · rintro rfl; omega
      · rintro n rfl; omega
    · by_cases h2 : i = -1
      · subst h2; simp [Limit.deserialize, eq_comm (a := l)]
      · simp only [Limit.deserialize, h1, h2, if_false, ByteValue.deserialize, Option.map_some, Option.some.injEq,
          Content.i64.injEq, reduceCtorEq, and_false, or_false, false_or, false_and, exists_false]
        constructor
        · rintro rfl; exact ⟨i.natAbs, by omega, rfl⟩
        · rintro ⟨n, rfl, rfl⟩; simp
  | str s =>
    by_cases h : s = "-1".toList
    · subst h
      simp [Limit.deserialize, eq_comm (a := l)]
      intro b hb
      exact absurd hb (minusOne_not_bytes b)
    · have h' : s ≠ ['-', '1'] := h
      simp [Limit.deserialize, ByteValue.deserialize, byteText_iff, h', eq_comm (a := l)]
  | u64 n => simp [Limit.deserialize, ByteValue.deserialize, eq_comm (a := l)]
  | _ => simp [Limit.deserialize]

theorem limit_denotes (max : Nat) : Denotes (Codecs.limit max) (Meaning.limit max) := plain_denotes fun v l => by
  unfold Meaning.limit minusOne
  simp only [← deUnsigned_iff]
  cases v with
  | i64 i =>
    by_cases h1 : i ≤ -2
    · simp [Limit.deserialize, h1, deUnsigned]; omega
    · by_cases h2 : i = -1
      · subst h2; simp [Limit.deserialize, deUnsigned, eq_comm (a := l)]
      · have h3 : 0 ≤ i := by omega
        have h4 : i.natAbs ≤ max ↔ i ≤ max := by omega
        simp [Limit.deserialize, h1, h2, h3, h4, deUnsigned, eq_comm (a := l)]
  | str s =>
    by_cases h : s = "-1".toList
    · subst h; simp [Limit.deserialize, deUnsigned, eq_comm (a := l)]
    · have h' : s ≠ ['-', '1'] := h
      simp [Limit.deserialize, h', deUnsigned]
  | u64 n => simp [Limit.deserialize, deUnsigned, eq_comm (a := l)]
  | _ => simp [Limit.deserialize, deUnsigned]

instance : Denotes (Codecs.limit u32Max) (Meaning.limit (2 ^ 32 - 1)) := limit_denotes _
instance : Denotes (Codecs.limit u64Max) (Meaning.limit (2 ^ 64 - 1)) := limit_denotes _

instance : Denotes Codecs.count Meaning.count := plain_denotes fun v c => by
  rw [C59_count_serde.2.2]
  unfold Meaning.count Meaning.text
  simp only [C59_count_accepts]
  constructor
  · rintro (⟨n, rfl, h1, rfl⟩ | ⟨s, rfl, ⟨rfl, rfl⟩ | ⟨n, rfl, h1, h2⟩⟩)
    · exact .inr ⟨n, .inl ⟨rfl, h1⟩, rfl⟩
    · exact .inl ⟨rfl, rfl⟩
    · exact .inr ⟨n, .inr ⟨s, rfl, h2⟩, rfl⟩
  · rintro (⟨rfl, rfl⟩ | ⟨n, ⟨rfl, h1⟩ | ⟨s, rfl, h1⟩, rfl⟩)
    · exact .inr ⟨_, rfl, .inl ⟨rfl, rfl⟩⟩
    · exact .inl ⟨n, rfl, h1, rfl⟩
    · refine .inr ⟨s, rfl, .inr ⟨n, rfl, ?_, h1⟩⟩
      rintro rfl; exact C59_all_not_number n h1

theorem numberValue_iff {v : Content} {n : Number} : Number.deserialize v = some n ↔ NumberValue v n := by
  constructor
  · intro h
    cases v <;> simp only [Number.deserialize, Option.some.injEq, reduceCtorEq] at h <;> subst h <;> constructor
  · rintro (_ | _ | _) <;> rfl

instance : Denotes Codecs.stringOrNumber Meaning.stringOrNumber := plain_denotes fun v x => by
  unfold Meaning.stringOrNumber string
  simp only [← numberValue_iff]
  cases v <;> simp [Number.deserialize, eq_comm (a := x)]

instance : Denotes Codecs.value Meaning.value := plain_denotes fun v x => by
  unfold Meaning.value string boolean
  simp only [← numberValue_iff]
  cases v <;> simp [Number.deserialize, Value.deserialize, eq_comm (a := x)]

instance : Denotes Codecs.cpuSet Meaning.cpuSet := text_denotes fun s x => toOption_iff.trans (C48_cpuset_accepts s x)
instance : Denotes image (text ImageText) := text_denotes fun s x => toOption_iff.trans (C31_accepts s x)
instance : Denotes link (text LinkText) := text_denotes fun s x => toOption_iff.trans (C41_link_accepts s x)
instance : Denotes ipc (text IpcText) := text_denotes fun s x => toOption_iff.trans (C42_ipc_accepts s x)
instance : Denotes endpointMode (text EndpointModeText) :=
  text_denotes fun s x => Option.some_inj.trans (C42_endpoint_mode_accepts s x)
instance : Denotes capability (text CapabilityText) := text_denotes fun s x => Option.some_inj.trans (C42_capability_accepts s x)
instance : Denotes driver (text DriverText) := text_denotes fun s x => Option.some_inj.trans (C42_driver_accepts s x)
instance : Denotes volumesFrom (text VolumesFromText) := text_denotes fun s x => toOption_iff.trans (C43_volumes_from_accepts s x)
instance : Denotes device (text DeviceText) := text_denotes fun s x => toOption_iff.trans (C44_device_accepts s x)
instance : Denotes cgroupRule (text CgroupRuleText) := text_denotes fun s x => toOption_iff.trans (C44_cgroup_rule_accepts s x)
instance : Denotes macAddress (text MacText) := text_denotes fun s x => toOption_iff.trans (C46_mac_accepts s x)
instance : Denotes platform (text (PlatformText platforms)) :=
  text_denotes fun s x => toOption_iff.trans ((C49_platform_accepts C49_platform_table.1 s).1 x)
instance : Denotes shortVolume (text ShortVolumeText) := text_denotes fun s x => toOption_iff.trans (C37_short_volume_accepts s x)
instance : Denotes sshAuth (text SshAuthText) := text_denotes fun s x => toOption_iff.trans (C58_ssh_accepts s x)
instance : Denotes cache (text CacheText) := text_denotes fun s x => toOption_iff.trans (C57_parse s x)
instance : Denotes user (text UserText) := text_denotes fun s x => toOption_iff.trans (C45_user_accepts s x)
instance : Denotes protocol (text ProtocolText) := text_denotes fun s x => Option.some_inj.trans (C21_protocol_accepts s x)
instance : Denotes buildNetwork (text BuildNetworkText) := text_denotes fun s x => by
  rw [toOption_iff, C06_build_network_parse]
  constructor
  · rintro (⟨rfl, rfl⟩ | ⟨h1, h2, rfl⟩)
    · exact .none
    · exact .identifier h1 h2
  · rintro (_ | ⟨h1, h2⟩)
    · exact .inl ⟨rfl, rfl⟩
    · exact .inr ⟨h1, h2, rfl⟩

theorem contextText_iff {url : Str → Option Url} {s : Str} {c : Context} : Context.parse url s = c ↔ ContextText url s c := by
  rw [(C64_context_parse url).1]
  constructor
  · rintro (⟨u, h, rfl⟩ | ⟨h, rfl⟩)
    · exact .url h
    · exact .path h
  · rintro (h | h)
    · exact .inl ⟨_, h, rfl⟩
    · exact .inr ⟨h, rfl⟩

instance {E : Env} : Denotes (context E) (text (ContextText E.url)) :=
  text_denotes fun _ _ => Option.some_inj.trans contextText_iff

instance : Denotes selinux (word [("z", .shared), ("Z", .private)]) where
  iff v x := by
    unfold word
    cases v with
    | str s =>
      simp only [selinux, Codecs.text, Outcome.ofOption_eq_ok, List.mem_cons, Prod.mk.injEq, List.not_mem_nil, or_false]
      constructor
      · intro h
        split at h
        · rename_i c
          unfold SELinux.ofChar at h
          split at h
          · cases h; exact ⟨_, .inl ⟨rfl, rfl⟩, rfl⟩
          · cases h; exact ⟨_, .inr ⟨rfl, rfl⟩, rfl⟩
          · cases h
        · cases h
      · rintro ⟨w, ⟨rfl, rfl⟩ | ⟨rfl, rfl⟩, h⟩ <;> cases h <;> rfl
    | _ => simp [selinux, Codecs.text]

instance : Denotes Codecs.idOrName Meaning.idOrName := plain_denotes fun v x => by
  unfold Meaning.idOrName Meaning.text natural IsInteger
  cases v with
  | u64 n =>
    rw [C45_integer]
    simp
    intro _
    omega
  | i64 n =>
    rw [C45_integer]
    simp
    constructor
    · rintro ⟨n, rfl, h, rfl⟩; exact ⟨n, ⟨rfl, by omega⟩, rfl⟩
    · rintro ⟨n, ⟨rfl, h⟩, rfl⟩; exact ⟨n, rfl, by omega, rfl⟩
  | str s => simp [toOption_iff, C45_id_or_name_accepts]
  | _ => simp

theorem portOr_denotes {α ε : Type} {ser : α → Content} {valid : α → Prop} {port : Nat → α} {parse : Str → Outcome ε α}
    {P : Str → α → Prop} (h : ∀ s x, parse s = .ok x ↔ P s x) :
    Denotes ⟨ser, fun c => deserializeFromStrOrU16 port parse c, valid⟩ (portOr port P) where
  iff v x := by
    unfold portOr Meaning.text
    simp only [← deUnsigned_iff, ← h]
    cases v with
    | u64 n => by_cases hn : n ≤ 65535 <;> simp [deserializeFromStrOrU16, deUnsigned, u16Max, hn, eq_comm (a := x)]
    | i64 n =>
      by_cases hn : 0 ≤ n ∧ n ≤ 65535 <;> simp [deserializeFromStrOrU16, deUnsigned, u16Max, hn, eq_comm (a := x)]
    | str s => simp only [deserializeFromStrOrU16]; cases h : parse s <;> simp [deUnsigned, h]
    | _ => simp [deserializeFromStrOrU16, deUnsigned]

theorem ofExcept_iff {ε α : Type} {x : Except ε α} {a : α} : Outcome.ofExcept x = .ok a ↔ x = .ok a := by
  cases x <;> simp [Outcome.ofExcept]

instance : Denotes Codecs.range Schemas.range := portOr_denotes fun s x => ofExcept_iff.trans (C13_range_accepts s x)
instance {E : Env} : Denotes (Codecs.shortPort E) (Schemas.shortPort E) := portOr_denotes fun s x => C17_short_port_accepts _ s x
instance : Denotes Codecs.expose Schemas.expose := portOr_denotes fun s x => ofExcept_iff.trans (C22_expose_accepts s x)

instance : Denotes displayU32 (orNull (text (UInt (2 ^ 32 - 1)))) :=
  have : Denotes (Codecs.text (fun s => (parseUnsigned u32Max s).toOption) showNat (· ≤ u32Max)) (text (UInt (2 ^ 32 - 1))) :=
    text_denotes fun _ _ => toOption_iff.trans parseUnsigned_iff
  inferInstanceAs (Denotes (option _) (orNull _))

/-! ### Other types -/

instance : Denotes valueMap (entries MapKey (orNull Meaning.value)) := inferInstanceAs (Denotes (map _ _) _)

instance : Denotes Codecs.listOrMap Meaning.listOrMap where
  iff v x := by
    unfold Meaning.listOrMap
    simp only [← Denotes.iff (c := Codecs.set str) (m := distinct string), ← Denotes.iff (c := valueMap) (m := entries MapKey (orNull Meaning.value))]
    cases v <;> simp [Codecs.listOrMap, Codecs.set, valueMap, map, entriesOf, eq_comm (a := x)]

instance : Denotes Codecs.command Meaning.command where
  iff v x := by
    unfold Meaning.command
    simp only [← Denotes.iff (c := str) (m := string), ← Denotes.iff (c := list str) (m := items string)]
    cases v <;> simp [Codecs.command, list, str, Codecs.text, eq_comm (a := x)]

instance : Denotes Codecs.healthcheck Meaning.healthcheck where
  iff v h := by
    unfold Meaning.healthcheck
    constructor
    · intro hd
      obtain ⟨es, rfl⟩ := C53_mapping_only v h hd
      refine ⟨es, rfl, ?_⟩
      cases h with
      | disable => exact .inl ⟨rfl, (C53_disable es).1 hd⟩
      | command c => exact .inr ⟨c, rfl, (C53_command es c).1 hd⟩
    · rintro ⟨es, rfl, ⟨rfl, h1⟩ | ⟨c, rfl, h1⟩⟩
      · exact (C53_disable es).2 h1
      · exact (C53_command es c).2 h1

instance : Denotes Codecs.credentialSpec Meaning.credentialSpec := plain_denotes fun v x => by
  unfold Meaning.credentialSpec
  constructor
  · intro h
    by_cases hv : ∃ es, v = Props.mapping es
    · obtain ⟨es, rfl⟩ := hv
      obtain ⟨b, e, a, rfl, h1⟩ := (C50_credential_spec es x).1 h
      exact ⟨b, e, a, rfl, h1⟩
    · have := (C50_mapping_only (N := Unit) (fun _ => none) v (fun es he => hv ⟨es, he⟩)).2.2.2.2.2.2
      rw [this] at h; cases h
  · rintro ⟨b, e, a, rfl, h1⟩
    exact (C50_credential_spec _ x).2 ⟨b, e, a, rfl, h1⟩

theorem listOrMap_nodup {v : Content} {m : OptionMap} (h : Meaning.listOrMap v (.map m)) : (m.map (·.1)).Nodup := by
  rcases h with ⟨l, _, h⟩ | ⟨m', ⟨es, all, _, _, ht⟩, h⟩
  · cases h
  · cases h
    rw [ht.1]; exact nodup_firsts _

instance {E : Env} : Denotes (Codecs.extraHosts E) (Meaning.extraHosts E) where
  iff v hosts := by
    unfold Meaning.extraHosts asMap
    simp only [Codecs.extraHosts, Outcome.bind_eq_ok, Outcome.ofOption_eq_ok, toOption_iff,
      Denotes.iff (c := Codecs.listOrMap) (m := Meaning.listOrMap)]
    constructor
    · rintro ⟨x, h1, h2⟩
      obtain ⟨m, h3, h4⟩ := (C63_extra_hosts E.float E.ip.parse x (fun m hm => listOrMap_nodup (hm ▸ h1)) hosts).1 h2
      exact ⟨m, ⟨x, h1, h4⟩, h3⟩
    · rintro ⟨m, ⟨x, h1, h4⟩, h3⟩
      exact ⟨x, h1, (C63_extra_hosts E.float E.ip.parse x (fun m hm => listOrMap_nodup (hm ▸ h1)) hosts).2 ⟨m, h3, h4⟩⟩

theorem shownValue_iff {ft : FloatText} {v : Value} {s : Str} : v.show ft = s ↔ ShownValue ft v s := by
  constructor
  · rintro rfl
    match v with
    | .string s => exact .string
    | .bool true => exact .true
    | .bool false => exact .false
    | .number (.unsignedInt n) => exact .unsignedInt
    | .number (.float x) => exact .float
    | .number (.signedInt i) =>
      show ShownValue ft _ (showInt i)
      unfold showInt
      split
      · obtain ⟨n, rfl⟩ : ∃ n : Nat, i = -n := ⟨i.natAbs, by omega⟩
        rw [Int.natAbs_neg, Int.natAbs_natCast]
        exact .negative (by omega)
      · obtain ⟨n, rfl⟩ : ∃ n : Nat, i = n := ⟨i.natAbs, by omega⟩
        rw [Int.natAbs_natCast]
        exact .natural
  · intro h
    cases h with
    | @natural n => show showInt (n : Int) = _; rw [showInt, if_neg (by omega)]; rfl
    | @negative n h => show showInt (-(n : Int)) = _; rw [showInt, if_pos (by omega), Int.natAbs_neg]; rfl
    | _ => rfl

theorem namedContext_iff {E : Env} {e : Str × Option Value} {c : Str × Context} :
    additionalContext E e = c ↔ NamedContext E e c := by
  obtain ⟨k, v⟩ := e
  cases v with
  | none =>
    constructor
    · rintro rfl; exact .none
    · rintro (_ | _); rfl
  | some v =>
    constructor
    · rintro rfl; exact .some (shownValue_iff.1 rfl) (contextText_iff.1 rfl)
    · rintro (_ | ⟨h1, h2⟩)
      show (_, Context.parse _ _) = _
      rw [shownValue_iff.2 h1, contextText_iff.2 h2]

theorem map_eq_iff_forall₂ {α β : Type} {f : α → β} {R : α → β → Prop} (h : ∀ a b, f a = b ↔ R a b) {l : List α}
    {l' : List β} : l.map f = l' ↔ List.Forall₂ R l l' := by
  induction l generalizing l' with
  | nil => simp [eq_comm]
  | cons a l ih =>
    simp only [List.map_cons, List.forall₂_cons_left_iff, ← ih, ← h]
    constructor
    · rintro rfl; exact ⟨_, _, rfl, rfl, rfl⟩
    · rintro ⟨_, _, rfl, rfl, rfl⟩; rfl

instance {E : Env} : Denotes (Codecs.additionalContexts E) (Meaning.additionalContexts E) where
  iff v cs := by
    unfold Meaning.additionalContexts asMap
    simp only [Codecs.additionalContexts, Outcome.bind_eq_ok, Outcome.map_eq_ok, Outcome.ofOption_eq_ok, toOption_iff,
      Denotes.iff (c := Codecs.listOrMap) (m := Meaning.listOrMap), ListOrMap.intoMap, C55_into_map,
      ← map_eq_iff_forall₂ fun a b => namedContext_iff (E := E) (e := a) (c := b)]
    have key : ∀ x m, Meaning.listOrMap v x →
        (x = .map m ∨ ∃ l es, x = .list l ∧ List.Forall₂ (ItemEntry E.float ['=']) l es ∧ Table es m) →
        IndexMap.collect (m.map (additionalContext E)) = m.map (additionalContext E) := by
      intro x m hx h
      apply IndexMap.collect_ok
      have hn : (m.map (·.1)).Nodup := by
        rcases h with rfl | ⟨l, es, _, _, ht⟩
        · exact listOrMap_nodup hx
        · rw [ht.1]; exact nodup_firsts _
      have : (m.map (additionalContext E)).map (·.1) = m.map (·.1) := by
        rw [List.map_map]
        apply List.map_congr_left
        rintro ⟨k, _ | v⟩ _ <;> rfl
      show ((m.map (additionalContext E)).map (·.1)).Nodup
      rwa [this]
    constructor
    · rintro ⟨x, h1, m, h2, rfl⟩; exact ⟨m, ⟨x, h1, h2⟩, (key x m h1 h2).symm⟩
    · rintro ⟨m, ⟨x, h1, h2⟩, rfl⟩; exact ⟨x, h1, m, h2, key x m h1 h2⟩

end Proofs
