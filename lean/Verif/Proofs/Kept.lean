import Verif.Spec.Ordinary
import Verif.Proofs.MeaningStructs

/- The values that are read from an ordinary file are valid, so that they survive being written and read. -/

namespace Proofs
open Rust Compose Compose.Derive Compose.Codecs Spec Spec.Meaning
open Props hiding mapping entriesOf_mapping

theorem part_trans {v w c : Content} (h : Part w c) (hv : Part v w) : Part v c := by
  induction h with
  | self => exact hv
  | item hm _ ih => exact .item hm ih
  | value hm _ ih => exact .value hm ih

theorem ordinary_part {v c : Content} (h : Ordinary c) (hv : Part v c) : Ordinary v where
  unsigned n hn := h.unsigned n (part_trans hv hn)
  negative i hi := h.negative i (part_trans hv hi)
  filled es k he := h.filled es k (part_trans hv he)
  noRo hp := h.noRo (part_trans hv hp)
  noRw hp := h.noRw (part_trans hv hp)

theorem ordinary_item {v : Content} {vs : List Content} (h : Ordinary (.seq vs)) (hv : v ∈ vs) : Ordinary v :=
  ordinary_part h (.item hv .self)

theorem ordinary_value {k v : Content} {es : List (Content × Content)} (h : Ordinary (.map es)) (hv : (k, v) ∈ es) :
    Ordinary v := ordinary_part h (.value hv .self)

/-- Entries of an ordinary mapping. -/
def OrdinaryEntries (es : List (Str × Content)) : Prop :=
  ∀ e ∈ es, Ordinary e.2 ∧ (e.1 ∈ listOrMapKeys → e.2 ≠ .map [])

theorem ordinary_entries {es : List (Str × Content)} (h : Ordinary (Derive.mapping es)) : OrdinaryEntries es := by
  intro e he
  have hm : (Content.str e.1, e.2) ∈ es.map fun e => (Content.str e.1, e.2) := List.mem_map_of_mem (f := fun e : Str × Content => (Content.str e.1, e.2)) he
  refine ⟨ordinary_value h hm, fun hk h' => h.filled _ e.1 .self hk ?_⟩
  rw [← h']; exact hm

/-- The values read from ordinary content are valid. -/
class Kept {α : Type} (c : Codec α) : Prop where
  valid : ∀ v x, Ordinary v → c.de v = .ok x → c.valid x

/-- The keys that are read are valid. -/
class KeptKey (k : Key) : Prop where
  valid : ∀ s x, k.parse s = some x → k.valid x

theorem kept_of_denotes {α : Type} {c : Codec α} {m : Meaning α} [Denotes c m]
    (h : ∀ v x, Ordinary v → m v x → c.valid x) : Kept c := ⟨fun v x hv hd => h v x hv (Denotes.iff v x |>.1 hd)⟩

theorem kept_text {α : Type} {c : Codec α} {P : Str → α → Prop} [Denotes c (text P)]
    (h : ∀ s x, P s x → c.valid x) : Kept c :=
  kept_of_denotes (m := text P) (by rintro v x _ ⟨s, rfl, hp⟩; exact h s x hp)

section
variable {α β : Type} {c : Codec α}

instance [Kept c] : Kept (option c) where
  valid v o hv h := by
    rintro x rfl
    cases v <;> simp only [option, Outcome.map_eq_ok, Outcome.ok.injEq, reduceCtorEq] at h <;>
      (obtain ⟨y, h, e⟩ := h; cases e; exact Kept.valid _ _ hv h)

theorem readAll_mem {de : Content → Outcome Unit α} {vs : List Content} {l : List α} (h : readAll de vs = .ok l) :
    ∀ x ∈ l, ∃ v ∈ vs, de v = .ok x := by
  induction vs generalizing l with
  | nil => cases h; intro x hx; cases hx
  | cons v vs ih =>
    simp only [readAll, Outcome.bind_eq_ok, Outcome.map_eq_ok] at h
    obtain ⟨y, h1, xs, h2, rfl⟩ := h
    intro x hx
    rcases List.mem_cons.1 hx with rfl | hx
    · exact ⟨v, by simp, h1⟩
    · obtain ⟨w, hw, h3⟩ := ih h2 x hx
      exact ⟨w, by simp [hw], h3⟩

theorem readAll_valid [Kept c] {vs : List Content} (hv : Ordinary (.seq vs)) {l : List α} (h : readAll c.de vs = .ok l) :
    ∀ x ∈ l, c.valid x := by
  intro x hx
  obtain ⟨v, hm, h1⟩ := readAll_mem h x hx
  exact Kept.valid v x (ordinary_item hv hm) h1

instance [Kept c] : Kept (Codecs.list c) where
  valid v l hv h := by
    cases v <;> simp only [Codecs.list, reduceCtorEq] at h
    exact readAll_valid hv h

theorem collect_valid [RustEq α] {l : List α} {P : α → Prop} (h : ∀ x ∈ l, P x) :
    IndexSet.Fresh (IndexSet.collectNew l) ∧ ∀ x ∈ IndexSet.collectNew l, P x :=
  ⟨IndexSet.fresh_collectNew l, fun x hx => h x (IndexSet.mem_collectNew hx)⟩

instance [RustEq α] [Kept c] : Kept (Codecs.set c) where
  valid v l hv h := by
    cases v <;> simp only [Codecs.set, Outcome.map_eq_ok, reduceCtorEq] at h
    obtain ⟨all, h1, rfl⟩ := h
    exact collect_valid (readAll_valid hv h1)

theorem readEntries_mem {key : Str → Option Str} {de : Content → Outcome Unit α} {es : List (Str × Content)}
    {m : List (Str × α)} (h : readEntries key de es = .ok m) :
    ∀ e ∈ m, ∃ e' ∈ es, key e'.1 = some e.1 ∧ de e'.2 = .ok e.2 := by
  induction es generalizing m with
  | nil => cases h; intro x hx; cases hx
  | cons e es ih =>
    simp only [readEntries, Outcome.bind_eq_ok, Outcome.map_eq_ok, Outcome.ofOption_eq_ok] at h
    obtain ⟨k, h0, y, h1, xs, h2, rfl⟩ := h
    intro x hx
    rcases List.mem_cons.1 hx with rfl | hx
    · exact ⟨e, by simp, h0, h1⟩
    · obtain ⟨w, hw, h3⟩ := ih h2 x hx
      exact ⟨w, by simp [hw], h3⟩

theorem table_valid {m : List (Str × α)} {P : Str × α → Prop} (h : ∀ e ∈ m, P e) :
    ((IndexMap.collect m).map (·.1)).Nodup ∧ ∀ e ∈ IndexMap.collect m, P e := by
  refine ⟨by rw [keys_collect]; exact nodup_firsts _, ?_⟩
  rintro ⟨k, v⟩ he
  obtain ⟨a, b, rfl, _⟩ := mem_collect.1 he
  exact h _ (by simp)

instance {k : Key} [KeptKey k] [Kept c] : Kept (map k c) where
  valid v m hv h := by
    simp only [map, Outcome.map_eq_ok, Outcome.bind_eq_ok, Outcome.ofOption_eq_ok] at h
    obtain ⟨all, ⟨es, h1, h2⟩, rfl⟩ := h
    refine table_valid fun e he => ?_
    obtain ⟨e', he', h3, h4⟩ := readEntries_mem h2 e he
    rw [entriesOf_iff] at h1
    subst h1
    exact ⟨KeptKey.valid _ _ h3, Kept.valid _ _ (ordinary_entries hv _ he').1 h4⟩

instance {l : Codec β} [Kept c] [Kept l] : Kept (Codecs.shortOrLong c l) where
  valid v x hv h := by
    cases v <;> simp only [Codecs.shortOrLong, Outcome.map_eq_ok] at h <;> obtain ⟨y, h1, rfl⟩ := h <;>
      first | exact Kept.valid (c := c) _ _ hv h1 | exact Kept.valid (c := l) _ _ hv h1

instance [RustEq α] [Kept c] : Kept (Codecs.itemOrList c) where
  valid v x hv h := by
    cases v <;> simp only [Codecs.itemOrList, Outcome.map_eq_ok, reduceCtorEq] at h <;> obtain ⟨y, h1, rfl⟩ := h
    case seq => exact collect_valid (readAll_valid hv h1)
    all_goals exact Kept.valid (c := c) _ _ hv h1

end

/-! ### Scalars -/

instance : Kept str := ⟨fun _ _ _ _ => trivial⟩
instance : Kept Codecs.bool := ⟨fun _ _ _ _ => trivial⟩
instance {α : Type} {write : α → Str} {words : List (Str × α)} : Kept (keyword write words) := ⟨fun _ _ _ _ => trivial⟩
instance {t : TextType} : Kept (Codecs.foreign t) := ⟨fun _ _ _ _ => trivial⟩
instance : Kept selinux := ⟨fun _ _ _ _ => trivial⟩
instance : Kept Codecs.command := ⟨fun _ _ _ _ => trivial⟩

theorem kept_unsigned (max : Nat) : Kept (unsigned max) :=
  have : Denotes (unsigned max) (natural max) := unsigned_denotes max
  kept_of_denotes (m := natural max) fun _ _ _ h => h.2

instance : Kept u16 := kept_unsigned _
instance : Kept u32 := kept_unsigned _
instance : Kept u64 := kept_unsigned _

instance : Kept identifier := kept_of_denotes (m := valid Identifier) (by rintro _ _ _ ⟨_, h⟩; exact h)
instance : Kept hostname := kept_of_denotes (m := valid Hostname) (by rintro _ _ _ ⟨_, h⟩; exact h)
instance : Kept projectName := kept_of_denotes (m := valid ProjectName) (by rintro _ _ _ ⟨_, h⟩; exact h)
instance : Kept absolutePath := kept_of_denotes (m := valid AbsolutePath) (by rintro _ _ _ ⟨_, h⟩; exact h)
instance : Kept hostPath := kept_of_denotes (m := valid HostPath) (by rintro _ _ _ ⟨_, h⟩; exact h)

theorem kept_key {k : Key} {K : Str → Prop} [DenotesKey k K] (h : ∀ s, K s → k.valid s) : KeptKey k where
  valid s x hs := by
    obtain ⟨h1, rfl⟩ := (DenotesKey.iff (k := k) (K := K) s x).1 hs
    exact h _ h1

instance : KeptKey identifierKey := kept_key (K := Identifier) fun _ h => h
instance : KeptKey mapKey := kept_key (K := MapKey) fun _ h => h
instance : KeptKey hostnameKey := kept_key (K := Hostname) fun _ h => h
instance : KeptKey ulimitKey := kept_key (K := UlimitResource) fun _ h => h

instance : Kept Codecs.percent := kept_of_denotes (m := Meaning.percent) fun _ _ _ h => h.2
instance : Kept Codecs.oomScoreAdj := kept_of_denotes (m := Meaning.oomScoreAdj) fun _ _ _ h => h.2
instance : Kept Codecs.weight := kept_of_denotes (m := Meaning.weight) fun _ _ _ h => ⟨h.2, h.1.2⟩

instance {E : Env} : Kept (Codecs.cpus E) where
  valid v c _ h := by
    have h : Cpus.deserialize E.float.parse v = some c := Outcome.ofOption_eq_ok.1 h
    obtain ⟨x, _, h2⟩ := (C67_cpus_deserialize_partial _ _ _).1 h
    unfold Cpus.new at h2
    split at h2
    · cases h2
    · split at h2
      · cases h2
      · cases h2; exact ⟨by simp_all, by simp_all⟩

theorem dvd_sum {d : Nat} {l : List Nat} (h : ∀ x ∈ l, d ∣ x) : d ∣ l.sum := by
  induction l with
  | nil => simp
  | cons x l ih =>
    rw [List.sum_cons]
    exact Nat.dvd_add (h x (by simp)) (ih fun y hy => h y (by simp [hy]))

theorem durationValue_valid {v : Content} {d : Duration} (h : DurationValue v d) :
    d.secs < 2 ^ 64 ∧ d.nanos < 10 ^ 9 ∧ d.nanos % 1000 = 0 := by
  cases h with
  | micros h1 h2 h3 h4 => exact ⟨by omega, h3, by omega⟩
  | text h =>
    obtain ⟨ts, _, _, h1, _, h3, h4, h5⟩ := h
    have h6 : totalNanos ts % 1000 = 0 := by
      refine Nat.mod_eq_zero_of_dvd (dvd_sum fun x hx => ?_)
      obtain ⟨t, ht, rfl⟩ := List.mem_map.1 hx
      have h7 := (h1 t ht).2
      refine Dvd.dvd.mul_left ?_ _
      simp only [durationUnits, List.mem_cons, Prod.mk.injEq, List.not_mem_nil, or_false] at h7
      rcases h7 with h | h | h | h | h <;> rw [h.2] <;> decide
    exact ⟨by omega, h4, by omega⟩

instance : Kept Codecs.duration := kept_of_denotes (m := Meaning.duration) (by
  rintro v o _ ⟨d, rfl, h⟩ d' hd
  cases hd
  exact durationValue_valid h)

instance : Kept Codecs.durationUs := kept_of_denotes (m := Meaning.durationUs) (by
  rintro v o _ (⟨_, rfl⟩ | ⟨n, d, h1, rfl, h2, h3⟩) d' hd
  · cases hd
  · cases hd
    have := h1.2
    simp only [Duration.asMicros]
    exact ⟨by omega, h2, by omega⟩)

theorem byteText_amount {s : Str} {b : ByteValue} (h : ByteText s b) : b.amount < 2 ^ 64 := by
  obtain ⟨num, u, f, n, _, h1, h2, rfl⟩ := h
  have h3 : n ≤ 2 ^ 64 - 1 := by obtain ⟨_, _, _, _, h⟩ := h1; omega
  simp only [byteUnits, List.mem_cons, Prod.mk.injEq, List.not_mem_nil, or_false] at h2
  rcases h2 with h | h | h | h | h | h | h | h | h | h | h | h <;> (rw [h.2]; simp only [ByteValue.amount]; omega)

instance : Kept Codecs.byteValue := kept_of_denotes (m := Meaning.byteValue) (by
  rintro v b hv (⟨n, rfl, rfl⟩ | ⟨s, rfl, h⟩)
  · exact hv.unsigned n .self
  · exact byteText_amount h)

instance : Kept Codecs.byteLimit := kept_of_denotes (m := Meaning.byteLimit) (by
  rintro v l hv (⟨_, rfl⟩ | ⟨n, h | h, rfl⟩ | ⟨b, ⟨s, rfl, h⟩, rfl⟩) b' hb
  · cases hb
  · cases hb
    subst h
    have := hv.negative _ .self
    omega
  · cases hb
    obtain ⟨_, rfl⟩ := h
    exact hv.unsigned n .self
  · cases hb; exact byteText_amount h)

theorem kept_limit (max : Nat) : Kept (Codecs.limit max) :=
  have := limit_denotes max
  kept_of_denotes (m := Meaning.limit max) (by
    rintro v l _ (⟨_, rfl⟩ | ⟨n, h, rfl⟩) m hm
    · cases hm
    · cases hm; exact h.2)

instance {max : Nat} : Kept (Codecs.limit max) := kept_limit max

instance : Kept Codecs.count := kept_of_denotes (m := Meaning.count) (by
  rintro v c _ (⟨_, rfl⟩ | ⟨n, h, rfl⟩) m hm
  · cases hm
  · cases hm
    rcases h with ⟨_, h⟩ | ⟨s, _, h⟩
    · simp only [u64Max]; omega
    · obtain ⟨_, _, _, _, h⟩ := h; simp only [u64Max]; omega)

theorem numberValue_valid {v : Content} {n : Number} (hv : Ordinary v) (h : NumberValue v n) : numberValid n := by
  cases h with
  | signedInt => exact hv.negative _ .self
  | _ => trivial

instance : Kept Codecs.stringOrNumber := kept_of_denotes (m := Meaning.stringOrNumber) (by
  rintro v x hv (⟨s, _, rfl⟩ | ⟨n, h, rfl⟩) m hm
  · cases hm
  · cases hm; exact numberValue_valid hv h)

instance : Kept Codecs.value := kept_of_denotes (m := Meaning.value) (by
  rintro v x hv (⟨s, _, rfl⟩ | ⟨n, h, rfl⟩ | ⟨b, _, rfl⟩) m hm
  · cases hm
  · cases hm; exact numberValue_valid hv h
  · cases hm)

instance : Kept Codecs.cpuSet := kept_of_denotes (m := Meaning.cpuSet) (by
  rintro v r _ ⟨s, _, items, _, _, h1, h2⟩
  refine ⟨h1, fun x hx => ?_⟩
  obtain ⟨i, _, P, h3, h4⟩ := (h2 x).1 hx
  cases h3 with
  | one h => obtain ⟨_, _, _, _, h⟩ := h; omega
  | range _ h => obtain ⟨_, _, _, _, h⟩ := h; omega)

instance : Kept image := kept_text (P := ImageText) fun s x h => ⟨s, (C31_accepts s x).2 h⟩
instance : Kept link := kept_text (P := LinkText) (by rintro s x (h | h) <;> exact h)
instance : Kept ipc := kept_text (P := IpcText) (by
  rintro s x (_ | h | ⟨h1, h2⟩)
  · trivial
  · exact h
  · exact ⟨h1, h2⟩)
instance : Kept endpointMode := kept_text (P := EndpointModeText) (by
  rintro s x (_ | _ | ⟨h1, h2⟩) <;> constructor <;> intro h <;> cases h <;> contradiction)
instance : Kept capability := kept_text (P := CapabilityText) (by
  rintro s x (_ | _ | ⟨h1, h2⟩) <;> constructor <;> intro h <;> cases h <;> contradiction)
instance : Kept Codecs.driver := kept_text (P := DriverText) (by
  rintro s x (_ | _ | ⟨h1, h2⟩) <;> constructor <;> intro h <;> cases h <;> contradiction)
instance : Kept protocol := kept_text (P := ProtocolText) (by
  rintro s x (_ | _ | ⟨h1, h2⟩) <;> constructor <;> intro h <;> cases h <;> contradiction)

instance : Kept volumesFrom := kept_of_denotes (m := text VolumesFromText) (by
  rintro v x hv ⟨s, rfl, h⟩
  have hi : ∀ {s v}, VolumesFromSourceText s v → match v with | .service i | .container i => Identifier i := by
    rintro s v (h | h) <;> exact h
  cases h with
  | ro h => exact ⟨hi h, nofun, nofun⟩
  | rw h =>
    refine ⟨hi h, fun e => ?_, fun e => ?_⟩
    · cases e; cases h; exact hv.noRo .self
    · cases e; cases h; exact hv.noRw .self
  | plain h h1 h2 =>
    refine ⟨hi h, fun e => ?_, fun e => ?_⟩
    · cases e; cases h; exact h1 (by decide)
    · cases e; cases h; exact h2 (by decide))

instance : Kept device := kept_text (P := DeviceText) (by
  rintro s x (⟨h1, h2, h3, _⟩ | ⟨h1, h2, h3, _⟩) <;> exact ⟨h3, h1, h2⟩)

theorem majorMinor_ok {s : Str} {m : MajorMinorNumber} (h : MajorMinorText s m) : MajorMinorOk m := by
  cases h with
  | number h => obtain ⟨_, _, _, _, h⟩ := h; exact h
  | _ => trivial

instance : Kept cgroupRule := kept_text (P := CgroupRuleText) (by
  rintro s x (⟨_, h1, h2, _⟩ | ⟨_, h1, h2, _⟩) <;> exact ⟨majorMinor_ok h1, majorMinor_ok h2⟩)

instance : Kept macAddress := kept_text (P := MacText) (by
  rintro s m ⟨a, b, c, d, e, f, x, y, z, u, v, w, _, rfl, h1, h2, h3, h4, h5, h6⟩
  have hb : ∀ {s n}, HexByte s n → n ≤ 255 := fun ⟨_, _, _, h⟩ => h
  exact ⟨rfl, by simp [hb h1, hb h2, hb h3, hb h4, hb h5, hb h6]⟩)

instance : Kept platform := kept_text (P := PlatformText platforms) (by
  rintro s p (h | ⟨h, ha⟩)
  · exact ⟨_, h, rfl, fun _ h => by cases h⟩
  · refine ⟨_, h, rfl, fun a' h' => ?_⟩
    cases h'
    cases ha with
    | plain h1 h2 => exact ⟨_, h1, h2, rfl, fun _ h => by cases h⟩
    | variant h1 h2 h3 h4 => exact ⟨_, h1, h2, rfl, fun _ h => by cases h; exact ⟨_, h3, _, h4, rfl⟩⟩)

theorem source_toStr {t : Str} {s : VolumeSource} (h : SourceText t s) : s.toStr = t := by
  cases s <;> exact h.1

instance : Kept shortVolume := kept_text (P := ShortVolumeText) (by
  rintro s v (⟨h1, h2⟩ | ⟨h1, h2, h3, h4⟩ | ⟨h1, h2, h3, h4, _⟩)
  · exact ⟨⟨h1, fun _ h => by cases h⟩, h2, fun _ h => by cases h⟩
  · refine ⟨⟨h3, fun _ h => ?_⟩, h4, fun _ h => ?_⟩ <;> cases h <;> simpa [source_toStr h1] using ‹_›
  · refine ⟨⟨h3, fun _ h => ?_⟩, h4, fun _ h => ?_⟩ <;> cases h <;> simpa [source_toStr h1] using ‹_›)

instance : Kept sshAuth := kept_text (P := SshAuthText) (by
  rintro s x (_ | ⟨h1, h2, h3⟩) i hi
  · cases hi
  · cases hi; exact ⟨h1, h3, h2⟩)

theorem contextText_valid {E : Env} [hu : UrlOk E] {s : Str} {c : Context} (h : ContextText E.url s c) : contextValid E c := by
  cases h with
  | url h => exact hu.again _ _ h
  | path h => exact h

instance {E : Env} [UrlOk E] : Kept (context E) := kept_text (P := ContextText E.url) fun _ _ h => contextText_valid h

instance : Kept Codecs.cache := kept_text (P := CacheText) fun s c h =>
  have := C57_parsed_canonical s c ((C57_parse s c).2 h)
  ⟨this.2, this.1⟩

instance : Kept buildNetwork := kept_text (P := BuildNetworkText) (by
  rintro s x (_ | ⟨h1, h2⟩) i hi
  · cases hi
  · cases hi; exact ⟨h2, h1⟩)

theorem idOrName_ok {s : Str} {x : IdOrName} (h : IdOrNameText s x) : IdOrNameOk x := by
  cases h with
  | id h => obtain ⟨_, _, _, _, h⟩ := h; exact h
  | name h => exact h

instance : Kept Codecs.user := kept_text (P := UserText) (by
  rintro s x (h | ⟨h1, h2⟩)
  · exact ⟨idOrName_ok h, fun _ h => by cases h⟩
  · exact ⟨idOrName_ok h1, fun _ h => by cases h; exact idOrName_ok h2⟩)

instance : Kept Codecs.idOrName := kept_of_denotes (m := Meaning.idOrName) (by
  rintro v x _ (⟨n, h, rfl⟩ | ⟨s, _, h⟩)
  · exact h.2
  · exact idOrName_ok h)

theorem rangeText_numbers {s : Str} {r : Range} (h : RangeText s r) : PortNumbers r := by
  have hb : ∀ {s n}, UInt 65535 s n → n ≤ 65535 := fun ⟨_, _, _, _, h⟩ => h
  cases h with
  | single h => exact ⟨hb h, fun _ h => by cases h⟩
  | range h1 h2 => exact ⟨hb h1, fun _ h => by cases h; exact hb h2⟩

theorem protocolSuffix_ok {s : Str} {p : Option Protocol} (h : ProtocolSuffix s p) : ∀ q, p = some q → ProtocolOk q := by
  rintro q rfl
  cases h with
  | some h => cases h <;> constructor <;> intro h <;> cases h <;> contradiction

theorem shortRangesText_ok {s : Str} {r : ShortRanges} (h : ShortRangesText s r) : ShortRangesOk r := by
  cases h with
  | container h => exact ⟨rangeText_numbers h, fun _ h => by cases h⟩
  | noHost h => exact ⟨rangeText_numbers h, fun _ h => by cases h⟩
  | both h1 h2 h3 h4 h5 =>
    exact ⟨rangeText_numbers h2, fun _ h => by cases h; exact ⟨rangeText_numbers h1, h3, h4, h5⟩⟩

instance : Kept Codecs.range := kept_of_denotes (m := Schemas.range) (by
  rintro v x _ (⟨n, h, rfl⟩ | ⟨s, _, h⟩)
  · exact ⟨h.2, fun _ h => by cases h⟩
  · exact rangeText_numbers h)

instance : Kept Codecs.expose := kept_of_denotes (m := Schemas.expose) (by
  rintro v x _ (⟨n, h, rfl⟩ | ⟨s, _, h1, h2⟩)
  · exact ⟨⟨h.2, fun _ h => by cases h⟩, fun _ h => by cases h⟩
  · exact ⟨rangeText_numbers h1, protocolSuffix_ok h2⟩)

instance {E : Env} : Kept (Codecs.shortPort E) := kept_of_denotes (m := Schemas.shortPort E) (by
  rintro v x _ (⟨n, h, rfl⟩ | ⟨s, _, h⟩)
  · exact ⟨⟨⟨h.2, fun _ h => by cases h⟩, fun _ h => by cases h⟩, fun _ h => by cases h⟩
  · cases h with
    | ranges h1 h2 => exact ⟨shortRangesText_ok h1, protocolSuffix_ok h2⟩
    | address _ _ h1 _ h2 => exact ⟨shortRangesText_ok h1, protocolSuffix_ok h2⟩)

instance : Kept displayU32 :=
  have : Denotes (Codecs.text (fun s => (parseUnsigned u32Max s).toOption) showNat (· ≤ u32Max)) (text (UInt (2 ^ 32 - 1))) :=
    text_denotes fun _ _ => toOption_iff.trans parseUnsigned_iff
  have : Kept (Codecs.text (fun s => (parseUnsigned u32Max s).toOption) showNat (· ≤ u32Max)) :=
    kept_text (P := UInt (2 ^ 32 - 1)) fun _ _ ⟨_, _, _, _, h⟩ => h
  inferInstanceAs (Kept (option _))

/-! ### Other types -/

instance : Kept valueMap := inferInstanceAs (Kept (map mapKey (option Codecs.value)))

/-- A list or map that is read is valid unless it is an empty map. -/
theorem listOrMap_valid {v : Content} {x : ListOrMap} (hv : Ordinary v) (hn : v ≠ .map [])
    (h : Codecs.listOrMap.de v = .ok x) : Codecs.listOrMap.valid x := by
  cases v <;> simp only [Codecs.listOrMap, Outcome.map_eq_ok, reduceCtorEq] at h <;> obtain ⟨y, h1, rfl⟩ := h
  · exact Kept.valid (c := Codecs.set str) _ _ hv h1
  · refine ⟨Kept.valid (c := valueMap) _ _ hv h1, ?_⟩
    rintro rfl
    have h2 := (Denotes.iff (c := valueMap) (m := entries MapKey (orNull Meaning.value)) _ _).1 h1
    obtain ⟨es, all, h3, h4, h5⟩ := h2
    cases es with
    | nil => exact hn h3
    | cons e es =>
      cases h4 with
      | cons _ _ =>
        have := h5.1
        simp [firsts] at this

theorem optField_valid {α : Type} {es : List (Str × Content)} {key : Str} {denotes : Content → α → Prop} {o : Option α}
    (h : OptField es key denotes o) : ∀ x, o = some x → ∃ v, denotes v x := by
  rintro x rfl
  rcases h with ⟨_, h⟩ | ⟨v, y, _, h, e⟩
  · cases h
  · cases e; exact ⟨v, h⟩

instance : Kept Codecs.healthcheck := kept_of_denotes (m := Meaning.healthcheck) (by
  rintro v h _ ⟨es, _, ⟨rfl, _⟩ | ⟨c, rfl, hc⟩⟩ c' hc'
  · cases hc'
  · cases hc'
    have hd : ∀ {k o}, OptField es k DurationValue o → Codecs.duration.valid o := fun ho d hd => by
      obtain ⟨v, hv⟩ := optField_valid ho d hd
      exact durationValue_valid hv
    refine ⟨hd hc.interval, hd hc.timeout, hd hc.startPeriod, hd hc.startInterval, fun n hn => ?_, fun e he => ?_, hc.distinct⟩
    · obtain ⟨v, hv⟩ := optField_valid hc.retries n hn
      exact hv.2
    · rw [hc.extensions, List.mem_filter] at he
      exact (hc.keys e he.1).resolve_left (by simpa using he.2))

instance : Kept Codecs.credentialSpec := kept_of_denotes (m := Meaning.credentialSpec) (by
  rintro v x _ ⟨b, e, a, _, h1, h2, h3, h4⟩
  refine ⟨fun i hi => ?_, by rwa [h2], by rwa [h2]⟩
  rw [hi] at h1
  cases h1; assumption)

theorem forall₂_right {α β : Type} {R : α → β → Prop} {P : β → Prop} {l : List α} {m : List β} (h : List.Forall₂ R l m)
    (hp : ∀ a b, R a b → P b) : ∀ b ∈ m, P b := by
  induction h with
  | nil => intro b hb; cases hb
  | cons h _ ih =>
    intro b hb
    rcases List.mem_cons.1 hb with rfl | hb
    · exact hp _ _ h
    · exact ih b hb

theorem forall₂_keys {α β : Type} {R : Str × α → Str × β → Prop} {l : List (Str × α)} {m : List (Str × β)}
    (h : List.Forall₂ R l m) (hp : ∀ a b, R a b → a.1 = b.1) : m.map (·.1) = l.map (·.1) := by
  induction h with
  | nil => rfl
  | cons h _ ih => simp [ih, hp _ _ h]

theorem asMap_keys {ft : FloatText} {ds : List Char} {v : Content} {m : List (Str × Option Value)} (h : asMap ft ds v m) :
    (m.map (·.1)).Nodup ∧ ∀ e ∈ m, MapKey e.1 := by
  obtain ⟨x, h1, rfl | ⟨l, es, rfl, h2, h3⟩⟩ := h
  · refine ⟨listOrMap_nodup h1, ?_⟩
    rcases h1 with ⟨l, _, h⟩ | ⟨m', ⟨es, all, _, h2, h3⟩, h⟩
    · cases h
    · cases h
      rintro ⟨k, v⟩ he
      obtain ⟨a, b, rfl, _⟩ := (h3.2 k v).1 he
      exact forall₂_right h2 (P := fun e => MapKey e.1) (fun a b h => h.2.1 ▸ h.1) (k, v) (by simp)
  · refine ⟨by rw [h3.1]; exact nodup_firsts _, ?_⟩
    rintro ⟨k, v⟩ he
    obtain ⟨a, b, rfl, _⟩ := (h3.2 k v).1 he
    exact forall₂_right h2 (P := fun e => MapKey e.1) (fun a b h => by cases h <;> assumption) (k, v) (by simp)

instance {E : Env} : Kept (Codecs.extraHosts E) := kept_of_denotes (m := Meaning.extraHosts E) (by
  rintro v hosts _ ⟨m, h1, h2⟩
  have hk := forall₂_keys h2 fun a b h => h.1.symm
  refine ⟨by rw [hk]; exact (asMap_keys h1).1, fun e he => ⟨?_, trivial⟩⟩
  exact forall₂_right h2 (P := fun e => Hostname e.1) (fun a b h => h.1 ▸ h.2.1) e he)

instance {E : Env} [hu : UrlOk E] : Kept (Codecs.additionalContexts E) := kept_of_denotes (m := Meaning.additionalContexts E) (by
  rintro v cs _ ⟨m, h1, h2⟩
  have hk := forall₂_keys h2 fun a b h => by cases h <;> rfl
  refine ⟨by rw [hk]; exact (asMap_keys h1).1, fun e he => ⟨?_, ?_⟩⟩
  · have : e.1 ∈ m.map (·.1) := hk ▸ List.mem_map_of_mem (f := (·.1)) he
    obtain ⟨x, hx, h⟩ := List.mem_map.1 this
    rw [← h]; exact (asMap_keys h1).2 x hx
  · refine forall₂_right h2 (P := fun e => contextValid E e.2) (fun a b h => ?_) e he
    cases h with
    | none => exact hu.dot
    | some _ h => exact contextText_valid h)

/-! ### Fields -/

/-! ### Which files are ordinary -/

theorem ordinary_map {es : List (Content × Content)} :
    Ordinary (.map es) ↔ (∀ e ∈ es, Ordinary e.2) ∧ ∀ k ∈ listOrMapKeys, (.str k, .map []) ∉ es := by
  constructor
  · exact fun h => ⟨fun e he => ordinary_value (k := e.1) h he, fun k hk => h.filled es k .self hk⟩
  · rintro ⟨h1, h2⟩
    constructor
    · rintro n (_ | _ | ⟨h, h'⟩); exact (h1 _ h).unsigned n h'
    · rintro n (_ | _ | ⟨h, h'⟩); exact (h1 _ h).negative n h'
    · rintro es' k (_ | _ | ⟨h, h'⟩) hk
      · exact h2 k hk
      · exact (h1 _ h).filled es' k h' hk
    · rintro (_ | _ | ⟨h, h'⟩); exact (h1 _ h).noRo h'
    · rintro (_ | _ | ⟨h, h'⟩); exact (h1 _ h).noRw h'

theorem ordinary_seq {vs : List Content} : Ordinary (.seq vs) ↔ ∀ v ∈ vs, Ordinary v := by
  constructor
  · exact fun h v hv => ordinary_item h hv
  · intro h1
    constructor
    · rintro n (_ | ⟨h, h'⟩); exact (h1 _ h).unsigned n h'
    · rintro n (_ | ⟨h, h'⟩); exact (h1 _ h).negative n h'
    · rintro es' k (_ | ⟨h, h'⟩) hk; exact (h1 _ h).filled es' k h' hk
    · rintro (_ | ⟨h, h'⟩); exact (h1 _ h).noRo h'
    · rintro (_ | ⟨h, h'⟩); exact (h1 _ h).noRw h'

theorem ordinary_str {s : Str} : Ordinary (.str s) ↔ s ≠ "container:ro:rw".toList ∧ s ≠ "container:rw:rw".toList := by
  constructor
  · exact fun h => ⟨fun e => h.noRo (e ▸ .self), fun e => h.noRw (e ▸ .self)⟩
  · rintro ⟨h1, h2⟩
    constructor
    · rintro n (_ | _); 
    · rintro n (_ | _); 
    · rintro es' k (_ | _) 
    · generalize he : "container:ro:rw".toList = t at *; rintro (_ | _); exact h1 rfl
    · generalize he : "container:rw:rw".toList = t at *; rintro (_ | _); exact h2 rfl

theorem ordinary_u64 {n : Nat} : Ordinary (.u64 n) ↔ n < 2 ^ 64 := by
  constructor
  · exact fun h => h.unsigned n .self
  · intro h
    constructor
    · rintro n (_ | _); exact h
    · rintro n (_ | _); 
    · rintro es' k (_ | _) 
    · rintro (_ | _)
    · rintro (_ | _)

theorem ordinary_bool {b : Bool} : Ordinary (.bool b) := by
  constructor
  · rintro n (_ | _)
  · rintro n (_ | _)
  · rintro es' k (_ | _) 
  · rintro (_ | _)
  · rintro (_ | _)

theorem ordinary_unit : Ordinary .unit := by
  constructor
  · rintro n (_ | _)
  · rintro n (_ | _)
  · rintro es' k (_ | _) 
  · rintro (_ | _)
  · rintro (_ | _)

/-- The values of a field that are read from ordinary content are valid. -/
def ItemValid : Item → Prop
  | .field f =>
    (∀ v x, Ordinary v → (f.key ∈ listOrMapKeys → v ≠ .map []) → f.codec.de v = .ok x → f.codec.valid x) ∧
      ∀ x, f.default = some x → f.codec.valid x
  | .flat f => ∀ es x, OrdinaryEntries es → f.read es = .ok x → f.valid x

/-- The values of a field that are read from ordinary content are valid. -/
class ItemKept (i : Item) : Prop where
  valid : ItemValid i

/-- The values of all fields that are read from ordinary content are valid. -/
class ItemsKept (is : List Item) : Prop where
  valid : ∀ own es r, OrdinaryEntries es → StandsFor own es is r → recordValid is r

theorem ordinary_filter {es : List (Str × Content)} (h : OrdinaryEntries es) (p : Str × Content → Bool) :
    OrdinaryEntries (es.filter p) := fun e he => h e (List.mem_filter.1 he).1

instance : ItemsKept [] := ⟨fun _ _ _ _ _ => trivial⟩

theorem items_kept {i : Item} {is : List Item} (hi : ItemKept i) (h : ItemsKept is) : ItemsKept (i :: is) where
  valid own es r he hs := by
    obtain ⟨x, r⟩ := r
    have hi := hi.valid
    cases i with
    | field f =>
      refine ⟨?_, h.valid own es r he hs.2⟩
      rcases hs.1 with ⟨v, h1, h2⟩ | ⟨_, h1⟩
      · have hm : (f.key, v) ∈ es := by
          have : v ∈ given es f.key := by rw [h1]; simp
          obtain ⟨e, h3, rfl⟩ := List.mem_map.1 this
          obtain ⟨h4, h5⟩ := List.mem_filter.1 h3
          rw [← show e.1 = f.key by simpa using h5]; exact h4
        exact hi.1 v x (he _ hm).1 (he _ hm).2 h2
      · exact hi.2 x h1
    | flat f =>
      refine ⟨hi _ x ?_ hs.1, h.valid own es r he hs.2⟩
      unfold entriesFor
      split
      · exact ordinary_filter he _
      · exact ordinary_filter he _

instance {i : Item} {is : List Item} [hi : ItemKept i] [h : ItemsKept is] : ItemsKept (i :: is) := items_kept hi h

section
variable {α : Type} {key : String}

instance {c : Codec α} [Kept c] : ItemKept (req key c) := ⟨fun v x hv _ h => Kept.valid (c := c) v x hv h, fun _ h => by cases h⟩

/-- Nothing is a valid value of an optional field. -/
class NoneKept (c : Codec (Option α)) : Prop where
  none : c.valid none

instance {c : Codec α} : NoneKept (option c) := ⟨fun _ h => by cases h⟩
instance : NoneKept displayU32 := ⟨fun _ h => by cases h⟩
instance : NoneKept Codecs.duration := ⟨fun _ h => by cases h⟩
instance : NoneKept Codecs.durationUs := ⟨fun _ h => by cases h⟩

instance {c : Codec (Option α)} [Kept c] [hn : NoneKept c] : ItemKept (optWith key c) :=
  ⟨fun v x hv _ h => Kept.valid (c := c) v x hv h, fun _ h => by cases h; exact hn.none⟩

instance {c : Codec α} [Kept c] : ItemKept (opt key c) := inferInstanceAs (ItemKept (optWith key (option c)))

instance : ItemKept (flag key) := ⟨fun _ _ _ _ _ => trivial, fun _ _ => trivial⟩

instance : ItemKept (flagTrue key) := ⟨fun _ _ _ _ _ => trivial, fun _ _ => trivial⟩

/-- An empty collection is a valid value of a field. -/
class EmptyKept (c : Codec (List α)) : Prop where
  empty : c.valid []

instance {c : Codec α} : EmptyKept (Codecs.list c) := ⟨fun _ h => by cases h⟩
instance [RustEq α] {c : Codec α} : EmptyKept (Codecs.set c) := ⟨.nil, fun _ h => by cases h⟩
instance {k : Key} {c : Codec α} : EmptyKept (map k c) := ⟨List.nodup_nil, fun _ h => by cases h⟩
instance : EmptyKept valueMap := inferInstanceAs (EmptyKept (map mapKey (option Codecs.value)))
instance {E : Env} : EmptyKept (Codecs.extraHosts E) := ⟨List.nodup_nil, fun _ h => by cases h⟩
instance {E : Env} : EmptyKept (Codecs.additionalContexts E) := ⟨List.nodup_nil, fun _ h => by cases h⟩
instance : EmptyKept Codecs.cpuSet := ⟨List.Pairwise.nil, fun _ h => by cases h⟩

instance {c : Codec (List α)} [Kept c] [hn : EmptyKept c] : ItemKept (many key c) :=
  ⟨fun v x hv _ h => Kept.valid (c := c) v x hv h, fun _ h => by cases h; exact hn.empty⟩

/-- The key is one of those whose value is a list or a map. -/
class ListOrMapKey (key : String) : Prop where
  mem : key.toList ∈ listOrMapKeys

instance : ListOrMapKey "labels" := ⟨by decide⟩
instance : ListOrMapKey "args" := ⟨by decide⟩
instance : ListOrMapKey "options" := ⟨by decide⟩
instance : ListOrMapKey "environment" := ⟨by decide⟩
instance : ListOrMapKey "annotations" := ⟨by decide⟩
instance : ListOrMapKey "sysctls" := ⟨by decide⟩

instance [hk : ListOrMapKey key] : ItemKept (manyListOrMap key) :=
  ⟨fun _ _ hv hn h => listOrMap_valid hv (hn hk.mem) h,
    fun _ h => by cases h; exact EmptyKept.empty (c := Codecs.set str)⟩

instance : ItemKept extensions where
  valid es x _ h := by
    have h' : (readEntries extensionKey.parse anyContent.de es).map IndexMap.collect = .ok x := h
    simp only [Outcome.map_eq_ok, readEntries_iff (c := anyContent) (m := Eq) (k := extensionKey) (K := ExtensionKey),
      forall₂_self] at h'
    obtain ⟨_, ⟨h1, rfl⟩, rfl⟩ := h'
    exact table_valid h1

instance : ItemKept dockerfile := ⟨fun _ _ _ _ => trivial⟩
instance : ItemKept configSource := ⟨fun _ _ _ _ => trivial⟩
instance : ItemKept secretSource := ⟨fun _ _ _ _ => trivial⟩

end

instance {is : List Item} {own : List Str} [Keys is own] [DistinctKeys own] [h : ItemsKept is] : ItemKept (nested is) where
  valid es r he hr := h.valid _ es r he ((decode_ok table_good es r).1 hr)

/-- A struct that may be given as a list has no key of a list or map. -/
class ListSafe (is : List Item) : Prop where
  no : noFlat is = true → ∀ k ∈ ownKeys is, k ∉ listOrMapKeys

instance {is : List Item} {own : List Str} [Keys is own] [DistinctKeys own] [h : ItemsKept is] [hl : ListSafe is] :
    Kept (struct is) where
  valid v r hv hr := by
    obtain ⟨es, h1, h2⟩ := (struct_de_iff table_good).1 hr
    cases h1 with
    | mapping => exact h.valid _ es r (ordinary_entries hv) h2
    | list hf hn =>
      refine h.valid _ _ r (fun e he => ?_) h2
      obtain ⟨hk, hv'⟩ := List.of_mem_zip (show (e.1, e.2) ∈ _ from he)
      exact ⟨ordinary_item hv hv', fun h => absurd h (hl.no hf _ hk)⟩

end Proofs
