import Verif.Spec.Structs
import Verif.Proofs.Derive
import Verif.Props.Build
import Verif.Props.ByteValue
import Verif.Props.Cache
import Verif.Props.Common
import Verif.Props.CpuSet
import Verif.Props.Device
import Verif.Props.Exclusive
import Verif.Props.Healthcheck
import Verif.Props.Image
import Verif.Props.Keys
import Verif.Props.ListOrMap
import Verif.Props.Mac
import Verif.Props.Modes
import Verif.Props.Numbers
import Verif.Props.Platform
import Verif.Props.Ports
import Verif.Props.User
import Verif.Props.Volumes

/- The valid values of the types of the fields are read back from what is written for them. -/

namespace Proofs
open Rust Compose Compose.Derive Compose.Codecs Spec

/-! ### Shapes of what is written -/

/-- Nothing is written as null. -/
class NotUnit {α : Type} (c : Codec α) : Prop where
  ne : ∀ x, c.ser x ≠ .unit

/-- Nothing is written as a mapping. -/
class NotMap {α : Type} (c : Codec α) : Prop where
  ne : ∀ x es, c.ser x ≠ .map es

/-- Nothing is written as a sequence. -/
class NotSeq {α : Type} (c : Codec α) : Prop where
  ne : ∀ x vs, c.ser x ≠ .seq vs

/-- Everything is written as a mapping. -/
class IsMap {α : Type} (c : Codec α) : Prop where
  eq : ∀ x, ∃ es, c.ser x = .map es

/-- Reading gives back the valid values other than `None`. -/
class LawfulSome {α : Type} (c : Codec (Option α)) : Prop where
  read : ∀ x, c.valid (some x) → c.de (c.ser (some x)) = .ok (some x)

instance {α : Type} (c : Codec α) [IsMap c] : NotUnit c where
  ne x h := by obtain ⟨es, e⟩ := IsMap.eq (c := c) x; rw [e] at h; cases h

/-! ### Collections -/

section
variable {α : Type} {c : Codec α}

instance [Lawful c] [NotUnit c] : Lawful (option c) where
  read o ho := by
    cases o with
    | none => rfl
    | some x =>
      have h1 : c.de (c.ser x) = .ok x := Lawful.read x (ho x rfl)
      have h2 : c.ser x ≠ .unit := NotUnit.ne x
      show (option c).de (c.ser x) = _
      revert h1 h2
      generalize c.ser x = v
      intro h1 h2
      cases v <;> first | exact absurd rfl h2 | simp [option, h1]

instance [Lawful (option c)] : LawfulSome (option c) := ⟨fun x h => Lawful.read (c := option c) (some x) h⟩

theorem readAll_map {de : Content → Outcome Unit α} {ser : α → Content} {l : List α}
    (h : ∀ x ∈ l, de (ser x) = .ok x) : readAll de (l.map ser) = .ok l := by
  induction l with
  | nil => rfl
  | cons x l ih =>
    simp only [List.mem_cons, forall_eq_or_imp] at h
    simp [readAll, h.1, ih h.2]

instance [Lawful c] : Lawful (list c) where
  read l hl := readAll_map (de := c.de) fun x hx => Lawful.read x (hl x hx)

instance : NotUnit (list c) := ⟨fun _ h => by cases h⟩
instance : NotMap (list c) := ⟨fun _ _ h => by cases h⟩

instance [RustEq α] [Lawful c] : Lawful (set c) where
  read l hl := by
    show (readAll c.de (l.map c.ser)).map IndexSet.collectNew = .ok l
    rw [readAll_map fun x hx => Lawful.read x (hl.2 x hx), Outcome.map_ok, IndexSet.collectNew_fresh hl.1]

instance [RustEq α] : NotUnit (set c) := ⟨fun _ h => by cases h⟩
instance [RustEq α] : NotMap (set c) := ⟨fun _ _ h => by cases h⟩

/-- Valid keys are read as themselves. -/
class LawfulKey (k : Key) : Prop where
  read : ∀ s, k.valid s → k.parse s = some s

theorem readEntries_map {key : Str → Option Str} {de : Content → Outcome Unit α} {ser : α → Content} {m : List (Str × α)}
    (h : ∀ e ∈ m, key e.1 = some e.1 ∧ de (ser e.2) = .ok e.2) :
    readEntries key de (m.map fun e => (e.1, ser e.2)) = .ok m := by
  induction m with
  | nil => rfl
  | cons e m ih =>
    simp only [List.mem_cons, forall_eq_or_imp] at h
    simp [readEntries, h.1.1, h.1.2, ih h.2]

instance {k : Key} [LawfulKey k] [Lawful c] : Lawful (map k c) where
  read m hm := by
    show ((Outcome.ofOption (entriesOf (mapping _))).bind (readEntries k.parse c.de)).map IndexMap.collect = .ok m
    rw [entriesOf_mapping, Outcome.ofOption_some, Outcome.bind_ok,
      readEntries_map fun e he => ⟨LawfulKey.read _ (hm.2 e he).1, Lawful.read _ (hm.2 e he).2⟩, Outcome.map_ok,
      IndexMap.collect_ok hm.1]

instance {k : Key} : IsMap (map k c) := ⟨fun _ => ⟨_, rfl⟩⟩

instance {β : Type} {l : Codec β} [Lawful c] [Lawful l] [NotMap c] [IsMap l] : Lawful (shortOrLong c l) where
  read x hx := by
    cases x with
    | short x =>
      have h1 : c.de (c.ser x) = .ok x := Lawful.read x hx
      have h2 : ∀ es, c.ser x ≠ .map es := NotMap.ne x
      show (shortOrLong c l).de (c.ser x) = _
      revert h1 h2
      generalize c.ser x = v
      intro h1 h2
      cases v <;> first | exact absurd rfl (h2 _) | simp [shortOrLong, h1]
    | long x =>
      have h1 : l.de (l.ser x) = .ok x := Lawful.read x hx
      obtain ⟨es, h2⟩ := IsMap.eq (c := l) x
      show (shortOrLong c l).de (l.ser x) = _
      rw [h2] at h1 ⊢
      simp [shortOrLong, h1]

instance {β : Type} {l : Codec β} [NotUnit c] [NotUnit l] : NotUnit (shortOrLong c l) where
  ne x := by
    cases x with
    | short x => exact NotUnit.ne (c := c) x
    | long x => exact NotUnit.ne (c := l) x

instance [RustEq α] [Lawful c] [NotUnit c] [NotSeq c] [NotMap c] : Lawful (itemOrList c) where
  read x hx := by
    cases x with
    | item x =>
      have h1 : c.de (c.ser x) = .ok x := Lawful.read x hx
      have h2 : ∀ es, c.ser x ≠ .map es := NotMap.ne x
      have h3 : ∀ es, c.ser x ≠ .seq es := NotSeq.ne x
      have h4 : c.ser x ≠ .unit := NotUnit.ne x
      show (itemOrList c).de (c.ser x) = _
      revert h1 h2 h3 h4
      generalize c.ser x = v
      intro h1 h2 h3 h4
      cases v <;> first
        | exact absurd rfl (h2 _)
        | exact absurd rfl (h3 _)
        | exact absurd rfl h4
        | simp [itemOrList, h1]
    | list l =>
      show (readAll c.de (l.map c.ser)).map (fun l => ItemOrList.list (IndexSet.collectNew l)) = .ok (.list l)
      rw [readAll_map fun x hx' => Lawful.read x (hx.2 x hx'), Outcome.map_ok, IndexSet.collectNew_fresh hx.1]

instance [RustEq α] [NotUnit c] : NotUnit (itemOrList c) where
  ne x := by
    cases x with
    | item x => exact NotUnit.ne (c := c) x
    | list l => exact nofun

end

/-! ### Scalars -/

section
variable {α : Type} {parse : Str → Option α} {«show» : α → Str} {valid : α → Prop}

theorem text_lawful (h : ∀ x, valid x → parse («show» x) = some x) : Lawful (text parse «show» valid) where
  read x hx := by
    show Outcome.ofOption (parse («show» x)) = .ok x
    rw [h x hx]; rfl

instance : NotUnit (text parse «show» valid) := ⟨fun _ h => by cases h⟩
instance : NotSeq (text parse «show» valid) := ⟨fun _ _ h => by cases h⟩
instance : NotMap (text parse «show» valid) := ⟨fun _ _ h => by cases h⟩

theorem plain_lawful {ser : α → Content} {de : Content → Option α} (h : ∀ x, valid x → de (ser x) = some x) :
    Lawful (plain ser de valid) where
  read x hx := by
    show Outcome.ofOption (de (ser x)) = .ok x
    rw [h x hx]; rfl

end

theorem toOption_ok {ε α : Type} {x : Except ε α} {a : α} (h : x = .ok a) : x.toOption = some a := by rw [h]; rfl

instance : Lawful str := text_lawful fun _ _ => rfl
instance : NotUnit str := inferInstanceAs (NotUnit (text _ _ _))
instance : NotSeq str := inferInstanceAs (NotSeq (text _ _ _))
instance : NotMap str := inferInstanceAs (NotMap (text _ _ _))

instance : Lawful bool := plain_lawful fun _ _ => rfl

theorem unsigned_lawful (max : Nat) : Lawful (unsigned max) :=
  plain_lawful fun n hn => by simp only [deUnsigned, if_pos hn]

instance : Lawful u16 := unsigned_lawful _
instance : Lawful u32 := unsigned_lawful _
instance : Lawful u64 := unsigned_lawful _
instance : NotUnit u16 := ⟨fun _ h => by cases h⟩
instance : NotUnit u32 := ⟨fun _ h => by cases h⟩
instance : NotUnit u64 := ⟨fun _ h => by cases h⟩

theorem keyword_lawful {α : Type} {write : α → Str} {words : List (Str × α)}
    (h : ∀ x, words.lookup (write x) = some x) : Lawful (keyword write words) := text_lawful fun x _ => h x

instance {α : Type} {write : α → Str} {words : List (Str × α)} : NotUnit (keyword write words) :=
  inferInstanceAs (NotUnit (text _ _ _))

theorem foreign_lawful {t : TextType} (h : ReadsBack t) : Lawful (foreign t) := text_lawful fun x _ => h x

instance {t : TextType} : NotUnit (foreign t) := inferInstanceAs (NotUnit (text _ _ _))
instance {t : TextType} : NotSeq (foreign t) := inferInstanceAs (NotSeq (text _ _ _))
instance {t : TextType} : NotMap (foreign t) := inferInstanceAs (NotMap (text _ _ _))

instance {E : Env} [h : EnvOk E] : Lawful (foreign E.ip) := foreign_lawful h.ip
instance {E : Env} [h : EnvOk E] : Lawful (foreign E.ip4) := foreign_lawful h.ip4
instance {E : Env} [h : EnvOk E] : Lawful (foreign E.ip6) := foreign_lawful h.ip6
instance {E : Env} [h : EnvOk E] : Lawful (foreign E.ipNet) := foreign_lawful h.ipNet

open Props hiding mapping

instance : Lawful identifier := text_lawful fun s h => toOption_ok ((C01_identifier_accepts s s).2 ⟨h, rfl⟩)
instance : NotUnit identifier := inferInstanceAs (NotUnit (text _ _ _))
instance : NotMap identifier := inferInstanceAs (NotMap (text _ _ _))
instance : Lawful hostname := text_lawful fun s h => toOption_ok ((C04_hostname_accepts s s).2 ⟨h, rfl⟩)
instance : NotUnit hostname := inferInstanceAs (NotUnit (text _ _ _))
instance : NotSeq hostname := inferInstanceAs (NotSeq (text _ _ _))
instance : NotMap hostname := inferInstanceAs (NotMap (text _ _ _))
instance : Lawful projectName := text_lawful fun s h => toOption_ok ((C02_project_name_accepts s s).2 ⟨h, rfl⟩)
instance : NotUnit projectName := inferInstanceAs (NotUnit (text _ _ _))
instance : Lawful absolutePath := text_lawful fun s h => toOption_ok ((C36_absolute_path_new s s).2 ⟨h, rfl⟩)
instance : NotUnit absolutePath := inferInstanceAs (NotUnit (text _ _ _))
instance : NotSeq absolutePath := inferInstanceAs (NotSeq (text _ _ _))
instance : NotMap absolutePath := inferInstanceAs (NotMap (text _ _ _))
instance : Lawful hostPath := text_lawful fun s h => toOption_ok ((C36_host_path_new s s).2 ⟨h, rfl⟩)

instance : LawfulKey identifierKey := ⟨fun s h => toOption_ok ((C01_identifier_accepts s s).2 ⟨h, rfl⟩)⟩
instance : LawfulKey mapKey := ⟨fun s h => toOption_ok ((C03_map_key_accepts s s).2 ⟨h, rfl⟩)⟩
instance : LawfulKey hostnameKey := ⟨fun s h => toOption_ok ((C04_hostname_accepts s s).2 ⟨h, rfl⟩)⟩
instance : LawfulKey ulimitKey := ⟨fun s h => toOption_ok ((C06_ulimit_resource_accepts s s).2 ⟨h, rfl⟩)⟩
instance : LawfulKey extensionKey := ⟨fun s h => toOption_ok ((C03_extension_key_accepts s s).2 ⟨h, rfl⟩)⟩

instance : Lawful percent := plain_lawful fun p h => by
  have e : Percent.new p.val = .ok p := by simp [Percent.new, h]
  exact (C52_bounded_serde_round_trip.1 _ _ e).2

instance : NotUnit percent := ⟨fun _ h => by cases h⟩

instance : Lawful oomScoreAdj := plain_lawful fun p h => by
  have e : OomScoreAdj.new p.val = .ok p := by simp [OomScoreAdj.new, h]
  exact (C52_bounded_serde_round_trip.2.1 _ _ e).2

instance : NotUnit oomScoreAdj := ⟨fun x h => by
  change serSigned _ = _ at h; unfold serSigned at h; split at h <;> cases h⟩

instance : Lawful Codecs.weight := plain_lawful fun p h => by
  have e : Weight.new p.val = .ok p := by
    have : p.val ≠ 0 := by have := h.1; omega
    simp [Weight.new, h, this]
  exact (C52_bounded_serde_round_trip.2.2 _ _ e).2

instance : NotUnit Codecs.weight := ⟨fun _ h => by cases h⟩

instance {E : Env} : Lawful (cpus E) := plain_lawful fun c h => by
  have e : Cpus.new c.val = .ok c := by simp [Cpus.new, h]
  exact (C65_cpus_serde_round_trip _ _ _ e).2

instance {E : Env} : NotUnit (cpus E) := ⟨fun _ h => by cases h⟩

instance : LawfulSome duration where
  read d hd := by
    obtain ⟨h1, h2, h3⟩ := hd d rfl
    show deserializeDuration (serializeDuration (some d)) = _
    rw [C68_duration_field.1 d h1 h2]
    obtain ⟨s, n⟩ := d
    simp only [Outcome.ok.injEq, Option.some.injEq, Duration.mk.injEq, true_and]
    simp only at h3
    omega

instance : LawfulSome durationUs where
  read d hd := by
    obtain ⟨h1, h2, h3⟩ := hd d rfl
    show Outcome.ofOption (deserializeDurationUs (serializeDurationUs (some d))) = _
    rw [(C61_duration_us_partial d h2).2.1 h1]
    obtain ⟨s, n⟩ := d
    simp only [Outcome.ofOption_some, Outcome.ok.injEq, Option.some.injEq, Duration.mk.injEq, true_and]
    simp only at h3
    omega

instance : Lawful byteValue := plain_lawful fun b h => C10_byte_value_serde_round_trip b (by omega)
instance : NotUnit byteValue := ⟨fun _ h => by cases h⟩
instance : Lawful byteLimit := plain_lawful fun l h =>
  C12_limit_byte_value_serde_round_trip l fun b hb => by have := h b hb; omega
instance : NotUnit byteLimit := ⟨fun x h => by cases x <;> cases h⟩

theorem limit_lawful (max : Nat) : Lawful (limit max) := plain_lawful fun l h => by
  cases l with
  | unlimited => rfl
  | value n =>
    have := h n rfl
    simp [Limit.serialize, Limit.deserialize, deUnsigned, this]

instance {max : Nat} : Lawful (limit max) := limit_lawful max
instance {max : Nat} : NotUnit (limit max) := ⟨fun x h => by cases x <;> cases h⟩
instance {max : Nat} : NotMap (limit max) := ⟨fun x _ h => by cases x <;> cases h⟩

instance : Lawful cpuSet := text_lawful fun s h => by
  obtain ⟨t, h1, h2⟩ := C48_cpuset_round_trip s h.1 h.2
  rw [h1]; exact toOption_ok h2

instance : Lawful image := text_lawful fun i h => by
  obtain ⟨s, h⟩ := h
  exact toOption_ok (C66_parsed_reparse s i h)
instance : NotUnit image := inferInstanceAs (NotUnit (text _ _ _))

instance : Lawful link := text_lawful fun l h => toOption_ok (C41_link_round_trip l h)
instance : Lawful ipc := text_lawful fun m h => toOption_ok ((C42_ipc_round_trip m).2 h)
instance : NotUnit ipc := inferInstanceAs (NotUnit (text _ _ _))
instance : Lawful endpointMode := text_lawful fun m h => congrArg some ((C42_endpoint_mode_round_trip m).2 h)
instance : NotUnit endpointMode := inferInstanceAs (NotUnit (text _ _ _))
instance : Lawful capability := text_lawful fun m h => congrArg some ((C42_capability_round_trip m).2 h)
instance : Lawful Codecs.driver := text_lawful fun m h => congrArg some ((C42_driver_round_trip m).2 h)
instance : NotUnit Codecs.driver := inferInstanceAs (NotUnit (text _ _ _))
instance : Lawful volumesFrom := text_lawful fun v h => toOption_ok ((C43_volumes_from_round_trip_partial v h.1).2 h.2)
instance : Lawful device := text_lawful fun d h => toOption_ok ((C44_device_round_trip d h.1).2 h.2)
instance : Lawful cgroupRule := text_lawful fun r h => toOption_ok (C44_cgroup_rule_round_trip r h.1 h.2)
instance : Lawful macAddress := text_lawful fun m h => toOption_ok (C46_mac_round_trip m h)
instance : NotUnit macAddress := inferInstanceAs (NotUnit (text _ _ _))
instance : Lawful platform := text_lawful fun p h => by
  obtain ⟨s, h1, h2, _⟩ := C49_platform_round_trip C49_platform_table.1 p h
  rw [h1]; exact toOption_ok h2
instance : NotUnit platform := inferInstanceAs (NotUnit (text _ _ _))
instance : Lawful shortVolume := text_lawful fun v h => toOption_ok ((C37_short_volume_round_trip v h.1).2 h.2)
instance : NotMap shortVolume := inferInstanceAs (NotMap (text _ _ _))
instance : Lawful selinux := text_lawful fun x _ => by cases x <;> rfl
instance : NotUnit selinux := inferInstanceAs (NotUnit (text _ _ _))

instance : Lawful sshAuth := text_lawful fun x h => by
  cases x with
  | default => rfl
  | id i =>
    obtain ⟨h1, h2, h3⟩ := h i rfl
    have e : SshId.new i.id i.path = .ok i := by simp [SshId.new, h1, h2]
    exact toOption_ok ((C58_ssh_round_trip.2 _ _ _ e).2.2.2 h3)

instance {E : Env} : Lawful (context E) := text_lawful fun c h => by
  cases c with
  | path p => exact congrArg some (((C64_context_parse E.url).2.1 p).2 h)
  | url u => exact congrArg some (((C64_context_parse E.url).2.2 u).2 h)

instance {E : Env} : NotUnit (context E) := inferInstanceAs (NotUnit (text _ _ _))
instance {E : Env} : NotMap (context E) := inferInstanceAs (NotMap (text _ _ _))

instance : Lawful Codecs.cache := text_lawful fun c h => toOption_ok ((C57_round_trip_partial c h.1).2 h.2)

instance : Lawful buildNetwork := text_lawful fun n h => by
  refine toOption_ok ((C06_build_network_parse _ _).2 ?_)
  cases n with
  | none => exact .inl ⟨rfl, rfl⟩
  | identifier i => exact .inr ⟨(h i rfl).2, (h i rfl).1, rfl⟩
instance : NotUnit buildNetwork := inferInstanceAs (NotUnit (text _ _ _))

instance : Lawful Codecs.user := text_lawful fun u h => toOption_ok (C45_user_round_trip u h.1 h.2)
instance : NotUnit Codecs.user := inferInstanceAs (NotUnit (text _ _ _))

instance : Lawful idOrName := plain_lawful fun x h => by
  cases x with
  | id n => exact (C45_integer n (.id n)).2 ⟨n, rfl, by have : n ≤ u32Max := h; simp only [u32Max] at this; omega, rfl⟩
  | name s => exact toOption_ok (C45_id_or_name_round_trip (.name s) h)

instance : Lawful Codecs.count := plain_lawful fun c h =>
  C59_count_serde.1 c fun n hn => by have := h n hn; simp only [u64Max] at this; omega
instance : NotUnit Codecs.count := ⟨fun x h => by cases x <;> cases h⟩

instance : Lawful range where
  read r h := by
    show deserializeFromStrOrU16 Range.ofU16 (fun s => .ofExcept (Range.fromStr s)) r.serialize = .ok r
    obtain ⟨s, e⟩ := r
    cases e with
    | none =>
      have : s ≤ u16Max := h.1
      simp [Range.serialize, deserializeFromStrOrU16, Range.ofU16, this]
    | some e =>
      simp [Range.serialize, deserializeFromStrOrU16, C13_range_round_trip _ h, Outcome.ofExcept]

instance : NotUnit range := ⟨fun x h => by
  change x.serialize = _ at h; unfold Range.serialize at h; split at h <;> cases h⟩

instance : Lawful protocol := text_lawful fun p h => congrArg some ((C21_protocol_round_trip p).2 h)
instance : NotUnit protocol := inferInstanceAs (NotUnit (text _ _ _))

theorem ipText {E : Env} [h : EnvOk E] :
    IpText (fun s => (E.ip.parse s).elim (Except.error ()) Except.ok) E.ip.show where
  round_trip a := by rw [h.ip a]; rfl
  no_slash := h.no_slash
  no_bracket := h.no_bracket

instance {E : Env} [EnvOk E] : Lawful (shortPort E) where
  read p h := C17_short_port_serde_round_trip _ _ ipText p h

instance : Lawful Codecs.expose where
  read e h := (C22_expose_serde_round_trip e h.1 h.2).1

instance {E : Env} : NotMap (shortPort E) := ⟨fun x es h => by
  change ShortPort.serialize _ x = _ at h
  unfold ShortPort.serialize ShortRanges.serialize Range.serialize at h
  split at h
  · cases h
  · split at h <;> try cases h
    split at h <;> cases h⟩

/-! ### Other types -/

instance : Lawful value := plain_lawful fun v h => (C56_value_serde v).1.2 fun i hi => h _ hi

theorem number_notUnit (n : Number) : n.serialize ≠ .unit := by
  cases n with
  | signedInt i => simp only [Number.serialize]; split <;> simp
  | unsignedInt _ => exact nofun
  | float _ => exact nofun

theorem value_notUnit (v : Value) : v.serialize ≠ .unit := by
  cases v with
  | number n => exact number_notUnit n
  | _ => exact nofun

instance : NotUnit value := ⟨value_notUnit⟩

instance : Lawful stringOrNumber := plain_lawful fun v h => by
  cases v with
  | string s => rfl
  | number n =>
    have h2 := h n rfl
    cases n with
    | unsignedInt n => rfl
    | signedInt i =>
      have h3 : i < 0 := h2
      simp [Number.serialize, Number.deserialize, h3]
    | float x => rfl

instance : NotUnit stringOrNumber := ⟨fun v => by
  cases v with
  | string s => exact nofun
  | number n => exact number_notUnit n⟩

instance : Lawful valueMap := inferInstanceAs (Lawful (map mapKey (option value)))

instance : Lawful listOrMap where
  read x h := by
    cases x with
    | list l =>
      have h1 : (set str).de ((set str).ser l) = .ok l := Lawful.read l h
      show ((set str).de ((set str).ser l)).map ListOrMap.list = _
      rw [h1]; rfl
    | map m =>
      have h1 : valueMap.de (valueMap.ser m) = .ok m := Lawful.read m h.1
      show (valueMap.de (valueMap.ser m)).map ListOrMap.map = _
      rw [h1]; rfl

instance : Lawful command where
  read x _ := by
    cases x with
    | string s => rfl
    | list l =>
      have h1 : (list str).de ((list str).ser l) = .ok l := Lawful.read l fun _ _ => trivial
      show ((list str).de ((list str).ser l)).map Command.list = _
      rw [h1]; rfl

instance : NotUnit command := ⟨fun x => by cases x <;> exact nofun⟩

instance : Lawful healthcheck where
  read h hh := C53_round_trip h hh

instance : NotUnit healthcheck := ⟨fun x => by cases x <;> exact nofun⟩

instance : Lawful credentialSpec := plain_lawful fun x h => (C50_round_trip (N := Unit) (fun _ => none) fun _ => .unit).2.2.2.2.2.2 x h.1 h.2.1 h.2.2

instance : NotUnit credentialSpec := ⟨nofun⟩


theorem readEntries_strings {es : List (Str × Str)} (h : ∀ e ∈ es, MapKey e.1) :
    readEntries mapKey.parse (option value).de (es.map fun e => (e.1, Content.str e.2)) =
      .ok (es.map fun e => (e.1, some (.string e.2))) := by
  induction es with
  | nil => rfl
  | cons e es ih =>
    simp only [List.mem_cons, forall_eq_or_imp] at h
    have h1 : mapKey.parse e.1 = some e.1 := LawfulKey.read e.1 h.1
    have h2 : (option value).de (.str e.2) = .ok (some (.string e.2)) := rfl
    simp [readEntries, h1, ih h.2, h2]

/-- A mapping to texts is read as a map of strings. -/
theorem listOrMap_strings {es : List (Str × Str)} (h : ∀ e ∈ es, MapKey e.1) (hn : (es.map (·.1)).Nodup) :
    listOrMap.de (mapping (es.map fun e => (e.1, .str e.2))) = .ok (.map (es.map fun e => (e.1, some (.string e.2)))) := by
  show (((Outcome.ofOption (entriesOf (mapping _))).bind _).map IndexMap.collect).map ListOrMap.map = _
  rw [entriesOf_mapping, Outcome.ofOption_some, Outcome.bind_ok, readEntries_strings h, Outcome.map_ok, Outcome.map_ok,
    IndexMap.collect_ok]
  simpa [IndexMap.Ok, Function.comp_def] using hn

theorem hostname_mapKey {s : Str} (h : Hostname s) : MapKey s := by
  refine ⟨?_, fun hn => absurd (hostname_chars h _ hn) (by decide)⟩
  rintro rfl
  have := (C04_hostname_accepts [] []).2 ⟨h, rfl⟩
  revert this; decide

instance {E : Env} [h : EnvOk E] : Lawful (Codecs.extraHosts E) where
  read m hm := by
    have h1 : (Codecs.extraHosts E).ser m = mapping ((m.map fun e => (e.1, E.ip.show e.2)).map fun e => (e.1, .str e.2)) := by
      simp [Codecs.extraHosts, map, foreign, text, Function.comp_def]
    rw [h1]
    show (listOrMap.de _).bind _ = _
    rw [listOrMap_strings]
    · rw [Outcome.bind_ok, Outcome.ofOption_eq_ok]
      refine toOption_ok ?_
      have h2 : collectResult (extraHost E.ip.parse)
          ((m.map fun e => (e.1, E.ip.show e.2)).map fun e => (e.1, some (Value.string e.2))) = .ok m := by
        rw [collectResult_ok, List.map_map, List.forall₂_map_left_iff, List.forall₂_same]
        intro e he
        have h3 := (C04_hostname_accepts e.1 e.1).2 ⟨(hm.2 e he).1, rfl⟩
        simp [extraHost, h3, stripBrackets_of_no_bracket (h.no_bracket e.2), h.ip e.2]
      simp only [Compose.extraHosts, ListOrMap.intoMapSplitOn, h2, IndexMap.collect_ok hm.1]
    · intro e he
      obtain ⟨x, hx, rfl⟩ := List.mem_map.1 he
      exact hostname_mapKey (hm.2 x hx).1
    · simpa [Function.comp_def] using hm.1

instance {E : Env} : IsMap (Codecs.extraHosts E) := ⟨fun _ => ⟨_, rfl⟩⟩

instance {E : Env} : Lawful (additionalContexts E) where
  read m hm := by
    have h1 : (additionalContexts E).ser m = mapping ((m.map fun e => (e.1, e.2.show)).map fun e => (e.1, .str e.2)) := by
      simp [additionalContexts, map, context, text, Function.comp_def]
    rw [h1]
    show (listOrMap.de _).bind _ = _
    rw [listOrMap_strings]
    · rw [Outcome.bind_ok]
      have h2 : ((m.map fun e => (e.1, e.2.show)).map fun e => (e.1, some (Value.string e.2))).map (additionalContext E) = m := by
        rw [List.map_map, List.map_map]
        conv => rhs; rw [← List.map_id m]
        refine List.map_congr_left fun e he => ?_
        have h3 : Context.parse E.url e.2.show = e.2 :=
          Option.some.inj ((Outcome.ofOption_eq_ok).1 (Lawful.read (c := context E) e.2 (hm.2 e he).2))
        simp [additionalContext, Value.show, h3]
      simp only [ListOrMap.intoMap, ListOrMap.intoMapSplitOn, Except.toOption, Outcome.ofOption_some, Outcome.map_ok, h2,
        IndexMap.collect_ok hm.1]
    · intro e he
      obtain ⟨x, hx, rfl⟩ := List.mem_map.1 he
      exact (hm.2 x hx).1
    · simpa [Function.comp_def] using hm.1

instance : Lawful displayU32 :=
  have : Lawful (text (fun s => (parseUnsigned u32Max s).toOption) showNat (· ≤ u32Max)) :=
    text_lawful fun n h => toOption_ok (parseUnsigned_showNat h)
  inferInstanceAs (Lawful (option _))

instance : LawfulSome displayU32 := ⟨fun x h => Lawful.read (c := displayU32) (some x) h⟩

end Proofs
