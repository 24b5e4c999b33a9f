import Verif.Model.Accessors
import Verif.Props.Modes
import Verif.Props.Ports
import Verif.Props.User
import Verif.Props.Cache
import Verif.Props.Build
import Verif.Props.Common
import Verif.Props.Image
import Verif.Props.Resource
import Verif.Props.Structs
import Verif.Proofs.StructLaws

/- C89: the accessors of a value tell what the text or document it was read from says. -/

namespace Props
open Rust Compose Spec

/-- Two texts that are equal start with the same character. -/
private theorem starts {s t : Str} {c d : Char} (h : s = t) (hs : s.head? = some c) (ht : t.head? = some d) : c = d := by
  subst h; rw [hs] at ht; exact Option.some.inj ht

/-- Refute the equality of two texts that start differently. -/
local macro "apart" h:term : tactic => `(tactic| exact absurd (starts $h rfl rfl) (by decide))

/-! ### Texts -/

private theorem networkMode_service {s : Str} {m : NetworkMode} (h : NetworkModeText s m) (i : Str) :
    m = .service i ↔ s = "service:".toList ++ i := by
  constructor
  · rintro rfl; cases h; rfl
  · intro e
    cases h with
    | none => apart e
    | host => apart e
    | service _ => rw [List.append_cancel_left e]
    | container _ => apart e
    | other _ _ h _ => exact absurd ⟨i, e.symm⟩ h

private theorem networkMode_container {s : Str} {m : NetworkMode} (h : NetworkModeText s m) (i : Str) :
    m = .container i ↔ s = "container:".toList ++ i := by
  constructor
  · rintro rfl; cases h; rfl
  · intro e
    cases h with
    | none => apart e
    | host => apart e
    | service _ => apart e
    | container _ => rw [List.append_cancel_left e]
    | other _ _ _ h => exact absurd ⟨i, e.symm⟩ h

private theorem networkMode_word {s : Str} {m : NetworkMode} (h : NetworkModeText s m) :
    (m = .none ↔ s = "none".toList) ∧ (m = .host ↔ s = "host".toList) := by
  refine ⟨⟨?_, ?_⟩, ?_, ?_⟩
  · rintro rfl; cases h; rfl
  · intro e
    cases h with
    | none => rfl
    | host => apart e
    | service _ => apart e
    | container _ => apart e
    | other h _ _ _ => exact absurd e h
  · rintro rfl; cases h; rfl
  · intro e
    cases h with
    | none => apart e
    | host => rfl
    | service _ => apart e
    | container _ => apart e
    | other _ h _ _ => exact absurd e h

/-- C89: the accessors of a network mode tell the form of the text it was parsed from. -/
theorem C89_network_mode (s : Str) (m : NetworkMode) (h : NetworkMode.parse s = .ok m) :
    (m.isNone = true ↔ s = "none".toList) ∧ (m.isHost = true ↔ s = "host".toList) ∧
    (m.isService = true ↔ "service:".toList <+: s) ∧ (∀ i, m.asService = some i ↔ s = "service:".toList ++ i) ∧
    (m.isContainer = true ↔ "container:".toList <+: s) ∧ (∀ i, m.asContainer = some i ↔ s = "container:".toList ++ i) ∧
    (m.isOther = true ↔ s ≠ "none".toList ∧ s ≠ "host".toList ∧ ¬ "service:".toList <+: s ∧ ¬ "container:".toList <+: s) ∧
    (∀ t, m.asOther = some t ↔ m.isOther = true ∧ t = s) := by
  have h := (C42_network_mode_accepts s m).1 h
  have h1 := networkMode_service h
  have h2 := networkMode_container h
  have ⟨h3, h4⟩ := networkMode_word h
  have p1 : "service:".toList <+: s ↔ ∃ i, m = .service i :=
    ⟨fun ⟨i, e⟩ => ⟨i, (h1 i).2 e.symm⟩, fun ⟨i, e⟩ => ⟨i, ((h1 i).1 e).symm⟩⟩
  have p2 : "container:".toList <+: s ↔ ∃ i, m = .container i :=
    ⟨fun ⟨i, e⟩ => ⟨i, (h2 i).2 e.symm⟩, fun ⟨i, e⟩ => ⟨i, ((h2 i).1 e).symm⟩⟩
  simp only [← h1, ← h2, ← h3, ← h4, p1, p2, ne_eq]
  cases h <;> simp [NetworkMode.isNone, NetworkMode.isHost, NetworkMode.isService, NetworkMode.asService,
    NetworkMode.isContainer, NetworkMode.asContainer, NetworkMode.isOther, NetworkMode.asOther, eq_comm]

example : ∃ m, NetworkMode.parse "container:db".toList = .ok m ∧ m.asContainer = some "db".toList ∧ m.isOther = false :=
  ⟨_, rfl, rfl, rfl⟩

private theorem ipc_forms {s : Str} {m : Ipc} (h : IpcText s m) :
    (m = .shareable ↔ s = "shareable".toList) ∧ ∀ i, m = .service i ↔ s = "service:".toList ++ i := by
  refine ⟨⟨?_, ?_⟩, fun i => ⟨?_, ?_⟩⟩
  · rintro rfl; cases h; rfl
  · intro e
    cases h with
    | shareable => rfl
    | service _ => exact absurd (starts (congrArg List.tail e) rfl rfl) (by decide)
    | other h _ => exact absurd e h
  · rintro rfl; cases h; rfl
  · intro e
    cases h with
    | shareable => exact absurd (starts (congrArg List.tail e) rfl rfl) (by decide)
    | service _ => rw [List.append_cancel_left e]
    | other _ h => exact absurd ⟨i, e.symm⟩ h

/-- C89: the accessors of an IPC mode tell the form of the text it was parsed from. -/
theorem C89_ipc (s : Str) (m : Ipc) (h : Ipc.parse s = .ok m) :
    (m.isShareable = true ↔ s = "shareable".toList) ∧
    (m.isService = true ↔ "service:".toList <+: s) ∧ (∀ i, m.asService = some i ↔ s = "service:".toList ++ i) ∧
    (m.isOther = true ↔ s ≠ "shareable".toList ∧ ¬ "service:".toList <+: s) ∧
    (∀ t, m.asOther = some t ↔ m.isOther = true ∧ t = s) := by
  have h := (C42_ipc_accepts s m).1 h
  have ⟨h1, h2⟩ := ipc_forms h
  have p : "service:".toList <+: s ↔ ∃ i, m = .service i :=
    ⟨fun ⟨i, e⟩ => ⟨i, (h2 i).2 e.symm⟩, fun ⟨i, e⟩ => ⟨i, ((h2 i).1 e).symm⟩⟩
  simp only [← h1, ← h2, p, ne_eq]
  cases h <;> simp [Ipc.isShareable, Ipc.isService, Ipc.asService, Ipc.isOther, Ipc.asOther, eq_comm]

example : ∃ m, Ipc.parse "shareable ".toList = .ok m ∧ m.isShareable = false ∧ m.asOther = some "shareable ".toList :=
  ⟨_, rfl, rfl, rfl⟩

/-- C89: the accessors of endpoint modes, capabilities and protocols recognise their words. -/
theorem C89_words (s : Str) :
    ((EndpointMode.parse s).isVip = true ↔ s = "vip".toList) ∧
    ((EndpointMode.parse s).isDnsrr = true ↔ s = "dnsrr".toList) ∧
    ((Capability.parse s).isGpu = true ↔ s = "gpu".toList) ∧
    ((Capability.parse s).isTpu = true ↔ s = "tpu".toList) ∧
    ((Protocol.parse s).isTcp = true ↔ s = "tcp".toList) ∧
    ((Protocol.parse s).isUdp = true ↔ s = "udp".toList) := by
  have e1 := (C42_endpoint_mode_accepts s _).1 rfl
  have e2 := (C42_capability_accepts s _).1 rfl
  have e3 := (C21_protocol_accepts s _).1 rfl
  refine ⟨?_, ?_, ?_, ?_, ?_, ?_⟩
  · generalize EndpointMode.parse s = m at e1
    cases e1 with
    | vip => exact ⟨fun _ => rfl, fun _ => rfl⟩
    | dnsrr => exact ⟨nofun, fun e => by apart e⟩
    | other h _ => exact ⟨nofun, fun e => absurd e h⟩
  · generalize EndpointMode.parse s = m at e1
    cases e1 with
    | vip => exact ⟨nofun, fun e => by apart e⟩
    | dnsrr => exact ⟨fun _ => rfl, fun _ => rfl⟩
    | other _ h => exact ⟨nofun, fun e => absurd e h⟩
  · generalize Capability.parse s = m at e2
    cases e2 with
    | gpu => exact ⟨fun _ => rfl, fun _ => rfl⟩
    | tpu => exact ⟨nofun, fun e => by apart e⟩
    | other h _ => exact ⟨nofun, fun e => absurd e h⟩
  · generalize Capability.parse s = m at e2
    cases e2 with
    | gpu => exact ⟨nofun, fun e => by apart e⟩
    | tpu => exact ⟨fun _ => rfl, fun _ => rfl⟩
    | other _ h => exact ⟨nofun, fun e => absurd e h⟩
  · generalize Protocol.parse s = m at e3
    cases e3 with
    | tcp => exact ⟨fun _ => rfl, fun _ => rfl⟩
    | udp => exact ⟨nofun, fun e => by apart e⟩
    | other h _ => exact ⟨nofun, fun e => absurd e h⟩
  · generalize Protocol.parse s = m at e3
    cases e3 with
    | tcp => exact ⟨nofun, fun e => by apart e⟩
    | udp => exact ⟨fun _ => rfl, fun _ => rfl⟩
    | other _ h => exact ⟨nofun, fun e => absurd e h⟩

example : ∃ m, NetworkMode.parse "container:db".toList = .ok m ∧ m.asContainer = some "db".toList ∧ m.isService = false :=
  ⟨_, rfl, rfl, rfl⟩
example : ∃ m, Ipc.parse "service:db".toList = .ok m ∧ m.asService = some "db".toList := ⟨_, rfl, rfl⟩

/-- C89: a user or group is an id exactly if the text is a number, and a name otherwise. -/
theorem C89_id_or_name (s : Str) (v : IdOrName) (h : IdOrName.parse s = .ok v) :
    (v.isId = true ↔ ∃ n, UInt (2 ^ 32 - 1) s n) ∧ (∀ n, v.asId = some n ↔ UInt (2 ^ 32 - 1) s n) ∧
    (v.isName = true ↔ UserName s) ∧ (∀ t, v.asName = some t ↔ UserName s ∧ t = s) := by
  have hm : u32Max = 2 ^ 32 - 1 := by decide
  have hv := (C45_id_or_name_accepts s v).1 h
  cases hv with
  | id h' =>
    rename_i k
    have hno : ¬ UserName s := fun hn => C45_id_not_name s k ⟨h', hn⟩
    rw [hm] at h'
    refine ⟨⟨fun _ => ⟨k, h'⟩, fun _ => rfl⟩, fun n => ⟨?_, ?_⟩, ⟨nofun, fun hn => absurd hn hno⟩,
      fun t => ⟨nofun, fun hn => absurd hn.1 hno⟩⟩
    · rintro h; cases h; exact h'
    · intro hn
      rw [← hm] at hn
      have := (C45_id_or_name_accepts s (.id n)).2 (.id hn)
      rw [h] at this; cases this; rfl
  | name h' =>
    have hno : ∀ n, ¬ UInt (2 ^ 32 - 1) s n := fun n hn => C45_id_not_name s n ⟨by rw [hm]; exact hn, h'⟩
    refine ⟨⟨nofun, fun ⟨n, hn⟩ => absurd hn (hno n)⟩, fun n => ⟨nofun, fun hn => absurd hn (hno n)⟩,
      ⟨fun _ => h', fun _ => rfl⟩, fun t => ⟨?_, ?_⟩⟩
    · rintro h; cases h; exact ⟨h', rfl⟩
    · rintro ⟨_, rfl⟩; rfl

example : ∃ v, IdOrName.parse "007".toList = .ok v ∧ v.asId = some 7 ∧ v.isName = false := ⟨_, rfl, rfl, rfl⟩

/-- C89: a cache is of the type `registry` exactly if it is written as an image or with that type, and of another type
exactly if it is written with it. -/
theorem C89_cache (s : Str) (c : Cache) (h : Cache.parse s = .ok c) :
    (∀ i, c.cacheType.asRegistry = some i ↔ ∃ options, CacheText s ⟨.registry i, options⟩) ∧
    (∀ t, c.cacheType.asOther = some t ↔ ∃ options, CacheText s ⟨.other t, options⟩) ∧
    (c.cacheType.isRegistry = true ↔ ∃ i, c.cacheType.asRegistry = some i) ∧
    (c.cacheType.isOther = true ↔ ∃ t, c.cacheType.asOther = some t) := by
  obtain ⟨ct, options⟩ := c
  have hc := (C57_parse s _).1 h
  have hu : ∀ c', CacheText s c' → c' = ⟨ct, options⟩ := by
    intro c' h'; rw [(C57_parse s c').2 h'] at h; cases h; rfl
  cases ct with
  | registry i =>
    refine ⟨fun j => ⟨?_, ?_⟩, fun t => ⟨nofun, ?_⟩, ⟨fun _ => ⟨i, rfl⟩, fun _ => rfl⟩, nofun, nofun⟩
    · rintro h; cases h; exact ⟨options, hc⟩
    · rintro ⟨o, h⟩; cases hu _ h; rfl
    · rintro ⟨o, h⟩; cases hu _ h
  | other t =>
    refine ⟨fun j => ⟨nofun, ?_⟩, fun t' => ⟨?_, ?_⟩, ⟨nofun, nofun⟩, ⟨fun _ => ⟨t, rfl⟩, fun _ => rfl⟩⟩
    · rintro ⟨o, h⟩; cases hu _ h
    · rintro h; cases h; exact ⟨options, hc⟩
    · rintro ⟨o, h⟩; cases hu _ h; rfl

example : ∃ c, Cache.parse "type=registry,ref=a/b".toList = .ok c ∧ c.cacheType.isRegistry = true ∧ c.cacheType.asOther = none :=
  ⟨_, rfl, rfl, rfl⟩

/-- C89: a build context is a path exactly if its text is not a URL. -/
theorem C89_context (parseUrl : Str → Option Url) (s : Str) :
    (∀ p, (Context.parse parseUrl s).asPath = some p ↔ parseUrl s = none ∧ p = s) ∧
    (∀ u, (Context.parse parseUrl s).asUrl = some u ↔ parseUrl s = some u) := by
  rcases ((C64_context_parse parseUrl).1 s _).1 rfl with ⟨u, h1, h2⟩ | ⟨h1, h2⟩
  · rw [h2, h1]; simp [Context.asPath, Context.asUrl]
  · rw [h2, h1]; simp [Context.asPath, Context.asUrl, eq_comm]

example : (Context.parse (fun _ => none) "./app".toList).asPath = some "./app".toList :=
  ((C89_context _ _).1 _).2 ⟨rfl, rfl⟩

/-- C89: the id of an SSH authentication is the text before the first `=`, the path is the text after it; `default` has
neither. -/
theorem C89_ssh_auth (s : Str) (a : SshAuth) (h : SshAuth.parse s = .ok a) :
    (∀ i, a.idOf = some i ↔ '=' ∉ i ∧ ∃ p, s = i ++ "=".toList ++ p) ∧
    (∀ p, a.pathOf = some p ↔ ∃ i, '=' ∉ i ∧ s = i ++ "=".toList ++ p) ∧
    (a.asId = none ↔ s = "default".toList) := by
  have ha := (C58_ssh_accepts s a).1 h
  have hd : ∀ i p : Str, "default".toList ≠ i ++ "=".toList ++ p := fun i p e => by
    have : '=' ∈ "default".toList := by rw [e]; simp
    exact absurd this (by decide)
  cases ha with
  | default =>
    refine ⟨fun i => ⟨nofun, ?_⟩, fun p => ⟨nofun, ?_⟩, fun _ => rfl, fun _ => rfl⟩
    · rintro ⟨_, p, e⟩; exact absurd e (hd _ _)
    · rintro ⟨i, _, e⟩; exact absurd e (hd _ _)
  | id h1 h2 h3 =>
    rename_i i p
    have hu : ∀ j q : Str, '=' ∉ j → i ++ "=".toList ++ p = j ++ "=".toList ++ q → i = j ∧ p = q := by
      intro j q hj e
      have e : i ++ '=' :: p = j ++ '=' :: q := by simpa using e
      have h3 := splitOnce_eq_some.2 ⟨e, hj⟩
      rw [splitOnce_eq_some.2 ⟨rfl, h2⟩] at h3
      cases h3; exact ⟨rfl, rfl⟩
    refine ⟨fun j => ⟨?_, ?_⟩, fun q => ⟨?_, ?_⟩, nofun, fun e => absurd e.symm (hd _ _)⟩
    · rintro h; cases h; exact ⟨h2, p, rfl⟩
    · rintro ⟨hj, q, e⟩; rw [(hu j q hj e).1.symm]; rfl
    · rintro h; cases h; exact ⟨i, h2, rfl⟩
    · rintro ⟨j, hj, e⟩; rw [(hu j q hj e).2.symm]; rfl

example : ∃ a, SshAuth.parse "a=/b=c".toList = .ok a ∧ a.idOf = some "a".toList ∧ a.pathOf = some "/b=c".toList :=
  ⟨_, rfl, rfl, rfl⟩

/-! ### Numbers and values -/

/-- C89: the accessors of a number tell what its text is. -/
theorem C89_number_text (ft : FloatText) (s : Str) (n : Number) (h : Number.parse ft s = .ok n) :
    (∀ k, n.asUnsignedInt = some k ↔ UInt (2 ^ 64 - 1) s k) ∧
    (∀ i, n.asSignedInt = some i ↔ ∃ ds, s = '-' :: ds ∧ IsNumber ds ∧ i = -(decimal ds : Int)) ∧
    (∀ x, n.asFloat = some x ↔ ¬ OnlyDigits s ∧ ft.parse s = some x) := by
  have hn := (C56_number_parse ft s n).1 h
  have hu : ∀ m, NumberText ft s m → m = n := fun m hm => numberText_unique hm hn
  have hneg : ∀ ds, s = '-' :: ds → IsNumber ds → ∃ i, n = .signedInt i := by
    rintro ds rfl hd
    cases hn' : n with
    | signedInt i => exact ⟨i, rfl⟩
    | unsignedInt k => subst hn'; cases hn with | unsignedInt h => exact absurd rfl (uint_onlyDigits h).2
    | float x => subst hn'; cases hn with | float h _ => exact absurd ⟨ds, .inr (.inr rfl), hd.2⟩ h
  cases hn' : n with
  | unsignedInt k =>
    subst hn'
    refine ⟨fun j => ⟨?_, fun h => ?_⟩, fun i => ⟨nofun, ?_⟩, fun x => ⟨nofun, ?_⟩⟩
    · rintro h; cases h; cases hn with | unsignedInt h => exact h
    · cases hu _ (.unsignedInt h); rfl
    · rintro ⟨ds, e, hd, -⟩; obtain ⟨i, h⟩ := hneg ds e hd; cases h
    · rintro ⟨h1, h2⟩; cases hu _ (.float h1 h2)
  | signedInt i =>
    subst hn'
    refine ⟨fun j => ⟨nofun, fun h => ?_⟩, fun j => ⟨?_, ?_⟩, fun x => ⟨nofun, ?_⟩⟩
    · cases hu _ (.unsignedInt h)
    · rintro h; cases h; cases hn with | signedInt h1 h2 => exact ⟨_, rfl, h1, rfl⟩
    · rintro ⟨ds, rfl, hd, rfl⟩
      generalize hs : '-' :: ds = s at hn
      cases hn with
      | signedInt h1 h2 => cases hs; rfl
    · rintro ⟨h1, h2⟩; cases hu _ (.float h1 h2)
  | float x =>
    subst hn'
    refine ⟨fun j => ⟨nofun, fun h => ?_⟩, fun i => ⟨nofun, ?_⟩, fun y => ⟨?_, ?_⟩⟩
    · cases hu _ (.unsignedInt h)
    · rintro ⟨ds, e, hd, -⟩; obtain ⟨i, h⟩ := hneg ds e hd; cases h
    · rintro h; cases h; cases hn with | float h1 h2 => exact ⟨h1, h2⟩
    · rintro ⟨h1, h2⟩; cases hu _ (.float h1 h2); rfl

example : Number.parse exampleFloat "-7".toList = .ok (.signedInt (-7)) ∧ (Number.signedInt (-7)).asSignedInt = some (-7) ∧
    (Number.signedInt (-7)).asUnsignedInt = none := by decide

/-- C89: the accessors of a number, a value and a string or number that are read from a document tell the scalar. -/
theorem C89_scalars (c : Content) :
    (∀ n, Number.deserialize c = some n →
      (n.isUnsignedInt = true ↔ ∃ k, c = .u64 k) ∧ (∀ k, n.asUnsignedInt = some k ↔ c = .u64 k) ∧
      (n.isSignedInt = true ↔ ∃ i, c = .i64 i) ∧ (∀ i, n.asSignedInt = some i ↔ c = .i64 i) ∧
      (n.isFloat = true ↔ ∃ x, c = .f64 x) ∧ (∀ x, n.asFloat = some x ↔ c = .f64 x)) ∧
    (∀ v, Value.deserialize c = some v →
      (v.isString = true ↔ ∃ s, c = .str s) ∧ (∀ s, v.asString = some s ↔ c = .str s) ∧
      (v.isNumber = true ↔ ∃ n, Number.deserialize c = some n) ∧ (∀ n, v.asNumber = some n ↔ Number.deserialize c = some n) ∧
      (v.isBool = true ↔ ∃ b, c = .bool b) ∧ (∀ b, v.asBool = some b ↔ c = .bool b)) ∧
    (∀ v, Codecs.stringOrNumber.de c = .ok v →
      (v.isString = true ↔ ∃ s, c = .str s) ∧ (∀ s, v.asString = some s ↔ c = .str s) ∧
      (v.isNumber = true ↔ ∃ n, Number.deserialize c = some n) ∧
      (∀ n, v.asNumber = some n ↔ Number.deserialize c = some n)) := by
  refine ⟨fun n h => ?_, fun v h => ?_, fun v h => ?_⟩
  · cases c <;> cases h <;> simp [Number.isUnsignedInt, Number.asUnsignedInt, Number.isSignedInt, Number.asSignedInt,
      Number.isFloat, Number.asFloat, eq_comm]
  · cases c <;> cases h <;> simp [Value.isString, Value.asString, Value.isNumber, Value.asNumber, Value.isBool,
      Value.asBool, Number.deserialize, eq_comm]
  · cases c <;> cases h <;> simp [StringOrNumber.isString, StringOrNumber.asString, StringOrNumber.isNumber,
      StringOrNumber.asNumber, Number.deserialize, eq_comm]

example : ∃ v, Value.deserialize (.i64 (-7)) = some v ∧ v.asNumber = some (.signedInt (-7)) ∧ v.isString = false :=
  ⟨_, rfl, rfl, rfl⟩

/-- C89: the accessors of a value parsed from text. -/
theorem C89_value_text (ft : FloatText) (s : Str) :
    (∀ b, (Value.parse ft s).asBool = some b ↔ s = if b then "true".toList else "false".toList) ∧
    (∀ n, (Value.parse ft s).asNumber = some n ↔ s ≠ "true".toList ∧ s ≠ "false".toList ∧ NumberText ft s n) ∧
    (∀ t, (Value.parse ft s).asString = some t ↔
      t = s ∧ s ≠ "true".toList ∧ s ≠ "false".toList ∧ ∀ n, ¬ NumberText ft s n) ∧
    (∀ n, (StringOrNumber.parse ft s).asNumber = some n ↔ NumberText ft s n) ∧
    (∀ t, (StringOrNumber.parse ft s).asString = some t ↔ t = s ∧ ∀ n, ¬ NumberText ft s n) := by
  have hv := (C56_value_parse ft s _).1 rfl
  have ⟨h1, h2⟩ := C56_string_or_number_parse ft s
  refine ⟨?_, ?_, ?_, fun n => ?_, fun t => ?_⟩
  · generalize Value.parse ft s = v at hv
    intro b
    cases hv with
    | true => cases b <;> simp [Value.asBool]
    | false => cases b <;> simp [Value.asBool]
    | number h1 h2 _ => cases b; exacts [⟨nofun, fun e => absurd e h2⟩, ⟨nofun, fun e => absurd e h1⟩]
    | string h1 h2 _ => cases b; exacts [⟨nofun, fun e => absurd e h2⟩, ⟨nofun, fun e => absurd e h1⟩]
  · generalize Value.parse ft s = v at hv
    intro n
    cases hv with
    | true => simp [Value.asNumber]
    | false => simp [Value.asNumber]
    | number h1 h2 h3 =>
      simp only [Value.asNumber, Option.some.injEq, h1, h2, ne_eq, not_false_eq_true, true_and]
      exact ⟨fun h => h ▸ h3, numberText_unique h3⟩
    | string h1 h2 h3 => simp [Value.asNumber, h3]
  · generalize Value.parse ft s = v at hv
    intro t
    cases hv with
    | true => simp [Value.asString]
    | false => simp [Value.asString]
    | number h1 h2 h3 =>
      simp only [Value.asString, reduceCtorEq, false_iff]
      rintro ⟨_, _, _, h⟩; exact h _ h3
    | string h1 h2 h3 =>
      simp only [Value.asString, Option.some.injEq, h1, h2, ne_eq, not_false_eq_true, true_and, h3, implies_true, and_true,
        eq_comm]
  · rw [← h1]
    cases StringOrNumber.parse ft s <;> simp [StringOrNumber.asNumber]
  · rw [← h2]
    cases StringOrNumber.parse ft s <;> simp [StringOrNumber.asString]

example : (Value.parse exampleFloat "true".toList).asBool = some true ∧
    (Value.parse exampleFloat "-7".toList).asNumber = some (.signedInt (-7)) ∧
    (Value.parse exampleFloat "x".toList).asString = some "x".toList := ⟨rfl, rfl, rfl⟩

/-! ### Documents -/

/-- C89: a list or map is a list exactly if the document has a sequence, and a map exactly if it has a mapping. -/
theorem C89_list_or_map (c : Content) (v : ListOrMap) (h : Codecs.listOrMap.de c = .ok v) :
    (∀ l, v.asList = some l ↔ (∃ cs, c = .seq cs) ∧ (Codecs.set Codecs.str).de c = .ok l) ∧
    (∀ m, v.asMap = some m ↔ (∃ es, c = .map es) ∧ Codecs.valueMap.de c = .ok m) := by
  cases c with
  | seq cs =>
    have h : ((Codecs.set Codecs.str).de (.seq cs)).map ListOrMap.list = .ok v := h
    cases hd : (Codecs.set Codecs.str).de (.seq cs) with
    | ok l =>
      rw [hd] at h; cases h
      refine ⟨fun l' => ⟨?_, ?_⟩, fun m => ⟨nofun, fun ⟨⟨_, h⟩, _⟩ => by cases h⟩⟩
      · rintro h; cases h; exact ⟨⟨cs, rfl⟩, rfl⟩
      · rintro ⟨_, h⟩; cases h; rfl
    | err e => rw [hd] at h; cases h
    | panic => rw [hd] at h; cases h
  | map es =>
    have h : (Codecs.valueMap.de (.map es)).map ListOrMap.map = .ok v := h
    cases hd : Codecs.valueMap.de (.map es) with
    | ok m =>
      rw [hd] at h; cases h
      refine ⟨fun l => ⟨nofun, fun ⟨⟨_, h⟩, _⟩ => by cases h⟩, fun m' => ⟨?_, ?_⟩⟩
      · rintro h; cases h; exact ⟨⟨es, rfl⟩, rfl⟩
      · rintro ⟨_, h⟩; cases h; rfl
    | err e => rw [hd] at h; cases h
    | panic => rw [hd] at h; cases h
  | _ => cases h

example : ∃ v, Codecs.listOrMap.de (.seq [.str "a=b".toList]) = .ok v ∧ v.asList = some ["a=b".toList] ∧ v.asMap = none :=
  ⟨_, rfl, rfl, rfl⟩

/-- C89: a field with a short and a long syntax is long exactly if the document has a mapping. -/
theorem C89_short_or_long {S L : Type} (s : Codec S) (l : Codec L) (c : Content) (v : ShortOrLong S L)
    (h : (Codecs.shortOrLong s l).de c = .ok v) :
    (v.isLong = true ↔ ∃ es, c = .map es) ∧ (v.isShort = true ↔ ¬ ∃ es, c = .map es) ∧
    (∀ x, v.asLong = some x ↔ (∃ es, c = .map es) ∧ l.de c = .ok x) := by
  have short : ∀ {c}, (¬ ∃ es, c = Content.map es) → (s.de c).map ShortOrLong.short = .ok v →
      (v.isLong = true ↔ ∃ es, c = .map es) ∧ (v.isShort = true ↔ ¬ ∃ es, c = .map es) ∧
      (∀ x, v.asLong = some x ↔ (∃ es, c = .map es) ∧ l.de c = .ok x) := by
    intro c hc h
    cases hd : s.de c with
    | ok y =>
      rw [hd] at h; cases h
      exact ⟨⟨nofun, fun h => absurd h hc⟩, ⟨fun _ => hc, fun _ => rfl⟩, fun x => ⟨nofun, fun h => absurd h.1 hc⟩⟩
    | err e => rw [hd] at h; cases h
    | panic => rw [hd] at h; cases h
  cases c with
  | map es =>
    have h : (l.de (.map es)).map ShortOrLong.long = .ok v := h
    cases hd : l.de (.map es) with
    | ok y =>
      rw [hd] at h; cases h
      refine ⟨⟨fun _ => ⟨es, rfl⟩, fun _ => rfl⟩, ⟨nofun, fun h => absurd ⟨es, rfl⟩ h⟩, fun x => ⟨?_, ?_⟩⟩
      · rintro h; cases h; exact ⟨⟨es, rfl⟩, rfl⟩
      · rintro ⟨_, h⟩; cases h; rfl
    | err e => rw [hd] at h; cases h
    | panic => rw [hd] at h; cases h
  | unit => exact short nofun h
  | bool b => exact short nofun h
  | u64 n => exact short nofun h
  | i64 n => exact short nofun h
  | f64 x => exact short nofun h
  | str t => exact short nofun h
  | seq cs => exact short nofun h

example : ∃ v, (Codecs.shortOrLong Codecs.str Codecs.listOrMap).de (.str "a".toList) = .ok v ∧ v.isShort = true ∧
    v.asLong = none := ⟨_, rfl, rfl, rfl⟩

private theorem mapping_same {es es' : List (Str × Content)} (h : Derive.mapping es = mapping es') : es' = es := by
  have := congrArg entriesOf h
  rw [Proofs.entriesOf_mapping, show mapping es' = Derive.mapping es' from rfl, Proofs.entriesOf_mapping] at this
  exact (Option.some.inj this).symm

/-- C89: a resource is external exactly if the document says `external: true`. -/
theorem C89_resource {T : Type} (order : IndexMap Str Content → List (Str × Content))
    (de : List (Str × Content) → Option T) (es : List (Str × Content)) (r : Resource T)
    (h : Resource.deserialize order de (Derive.mapping es) = some r) :
    (r.isExternal = true ↔ lastValue es "external".toList = some (.bool true)) ∧
    (r.isCompose = true ↔
      lastValue es "external".toList = none ∨ lastValue es "external".toList = some (.bool false)) ∧
    (∀ t, r.asCompose = some t ↔ r.isCompose = true ∧
      ∃ rest, Table (es.filter (·.1 ≠ "external".toList)) rest ∧ de (order rest) = some t) := by
  cases r with
  | external name =>
    obtain ⟨es', h1, h2, -, -⟩ := (C60_external order de _ name).1 h
    cases mapping_same h1
    refine ⟨⟨fun _ => h2, fun _ => rfl⟩, ⟨nofun, ?_⟩, fun t => ⟨nofun, fun h => nomatch h.1⟩⟩
    rintro (h | h) <;> rw [h2] at h <;> cases h
  | compose t =>
    obtain ⟨es', rest, h1, h2, ht, hd⟩ := (C60_compose order de _ t).1 h
    cases mapping_same h1
    refine ⟨⟨nofun, fun h => ?_⟩, ⟨fun _ => h2, fun _ => rfl⟩, fun u => ⟨?_, ?_⟩⟩
    rotate_left
    · intro hu; cases hu; exact ⟨rfl, rest, ht, hd⟩
    · rintro ⟨-, rest', ht', hd'⟩
      rw [table_iff.1 ht', ← table_iff.1 ht, hd] at hd'
      exact hd'
    rcases h2 with h2 | h2 <;> rw [h2] at h <;> cases h

example : ∃ r, Resource.deserialize id (fun es => some es.length)
    (Derive.mapping [("name".toList, .str "a".toList), ("external".toList, .bool false)]) = some r ∧
    r.isCompose = true ∧ r.asCompose = some 1 := ⟨_, rfl, rfl, rfl⟩

private theorem mount_forms {es : List (Str × Content)} {m : Structs.MountOf}
    (h : Structs.mount.de (Derive.mapping es) = .ok m) :
    (∃ r, m = .volume r ∧ given es "type".toList = [.str "volume".toList] ∧
      (Derive.struct Structs.mountVolume).de (Derive.mapping (es.filter fun e => e.1 ≠ "type".toList)) = .ok r) ∨
    (∃ r, m = .bind r ∧ given es "type".toList = [.str "bind".toList] ∧
      (Derive.struct Structs.mountBind).de (Derive.mapping (es.filter fun e => e.1 ≠ "type".toList)) = .ok r) ∨
    (∃ r, m = .tmpfs r ∧ given es "type".toList = [.str "tmpfs".toList] ∧
      (Derive.struct Structs.mountTmpfs).de (Derive.mapping (es.filter fun e => e.1 ≠ "type".toList)) = .ok r) ∨
    (∃ r, m = .namedPipe r ∧ given es "type".toList = [.str "npipe".toList] ∧
      (Derive.struct Structs.mountNamedPipe).de (Derive.mapping (es.filter fun e => e.1 ≠ "type".toList)) = .ok r) ∨
    (∃ r, m = .cluster r ∧ given es "type".toList = [.str "cluster".toList] ∧
      (Derive.struct Structs.mountCluster).de (Derive.mapping (es.filter fun e => e.1 ≠ "type".toList)) = .ok r) := by
  have ok : ∀ {α : Type} {f : α → Structs.MountOf} {o : Outcome Unit α}, o.map f = .ok m → ∃ r, m = f r ∧ o = .ok r := by
    intro α f o h
    cases o with
    | ok r => cases h; exact ⟨r, rfl, rfl⟩
    | err e => cases h
    | panic => cases h
  simp only [Proofs.struct_de_mapping]
  have h : Structs.mountRead es = .ok m := by
    have h' : (Outcome.ofOption (entriesOf (Derive.mapping es))).bind Structs.mountRead = .ok m := h
    rwa [Proofs.entriesOf_mapping] at h'
  unfold Structs.mountRead at h
  split at h
  · rename_i k tag hf
    have hg : given es "type".toList = [.str tag] := by
      show (es.filter fun e => e.1 = Structs.tagKey).map (·.2) = _
      rw [hf]; rfl
    rw [hg]
    dsimp only at h
    split at h
    · rename_i e; subst e; obtain ⟨r, h1, h2⟩ := ok h; exact .inl ⟨r, h1, rfl, h2⟩
    split at h
    · rename_i e; subst e; obtain ⟨r, h1, h2⟩ := ok h; exact .inr (.inl ⟨r, h1, rfl, h2⟩)
    split at h
    · rename_i e; subst e; obtain ⟨r, h1, h2⟩ := ok h; exact .inr (.inr (.inl ⟨r, h1, rfl, h2⟩))
    split at h
    · rename_i e; subst e; obtain ⟨r, h1, h2⟩ := ok h; exact .inr (.inr (.inr (.inl ⟨r, h1, rfl, h2⟩)))
    split at h
    · rename_i e; subst e; obtain ⟨r, h1, h2⟩ := ok h; exact .inr (.inr (.inr (.inr ⟨r, h1, rfl, h2⟩)))
    · cases h
  · cases h

/-- C89: the accessors of a mount tell its type, and the rest of the document is read as the struct they give. -/
theorem C89_mount (es : List (Str × Content)) (m : Structs.MountOf) (h : Structs.mount.de (Derive.mapping es) = .ok m) :
    (m.isVolume = true ↔ given es "type".toList = [.str "volume".toList]) ∧
    (∀ r, m.asVolume = some r ↔ given es "type".toList = [.str "volume".toList] ∧
      (Derive.struct Structs.mountVolume).de (Derive.mapping (es.filter fun e => e.1 ≠ "type".toList)) = .ok r) ∧
    (m.isBind = true ↔ given es "type".toList = [.str "bind".toList]) ∧
    (∀ r, m.asBind = some r ↔ given es "type".toList = [.str "bind".toList] ∧
      (Derive.struct Structs.mountBind).de (Derive.mapping (es.filter fun e => e.1 ≠ "type".toList)) = .ok r) ∧
    (m.isTmpfs = true ↔ given es "type".toList = [.str "tmpfs".toList]) ∧
    (∀ r, m.asTmpfs = some r ↔ given es "type".toList = [.str "tmpfs".toList] ∧
      (Derive.struct Structs.mountTmpfs).de (Derive.mapping (es.filter fun e => e.1 ≠ "type".toList)) = .ok r) ∧
    (m.isNamedPipe = true ↔ given es "type".toList = [.str "npipe".toList]) ∧
    (∀ r, m.asNamedPipe = some r ↔ given es "type".toList = [.str "npipe".toList] ∧
      (Derive.struct Structs.mountNamedPipe).de (Derive.mapping (es.filter fun e => e.1 ≠ "type".toList)) = .ok r) ∧
    (m.isCluster = true ↔ given es "type".toList = [.str "cluster".toList]) ∧
    (∀ r, m.asCluster = some r ↔ given es "type".toList = [.str "cluster".toList] ∧
      (Derive.struct Structs.mountCluster).de (Derive.mapping (es.filter fun e => e.1 ≠ "type".toList)) = .ok r) := by
  have no : ∀ {a b : Str}, a ≠ b → ([Content.str a] = [.str b]) = False := by
    intro a b h; simp [h]
  have yes : ∀ {is : List Derive.Item} {c : Content} {r r' : Derive.Record is}, (Derive.struct is).de c = .ok r →
      (some r = some r' ↔ (Derive.struct is).de c = .ok r') := by
    intro is c r r' h
    rw [h]; simp
  rcases mount_forms h with ⟨r, rfl, h1, h2⟩ | ⟨r, rfl, h1, h2⟩ | ⟨r, rfl, h1, h2⟩ | ⟨r, rfl, h1, h2⟩ | ⟨r, rfl, h1, h2⟩ <;>
    rw [h1] <;>
    simp only [Structs.MountOf.isVolume, Structs.MountOf.asVolume, Structs.MountOf.isBind, Structs.MountOf.asBind,
      Structs.MountOf.isTmpfs, Structs.MountOf.asTmpfs, Structs.MountOf.isNamedPipe, Structs.MountOf.asNamedPipe,
      Structs.MountOf.isCluster, Structs.MountOf.asCluster,
      no (show "volume".toList ≠ "bind".toList by decide), no (show "volume".toList ≠ "tmpfs".toList by decide),
      no (show "volume".toList ≠ "npipe".toList by decide), no (show "volume".toList ≠ "cluster".toList by decide),
      no (show "bind".toList ≠ "volume".toList by decide), no (show "bind".toList ≠ "tmpfs".toList by decide),
      no (show "bind".toList ≠ "npipe".toList by decide), no (show "bind".toList ≠ "cluster".toList by decide),
      no (show "tmpfs".toList ≠ "bind".toList by decide), no (show "tmpfs".toList ≠ "volume".toList by decide),
      no (show "tmpfs".toList ≠ "npipe".toList by decide), no (show "tmpfs".toList ≠ "cluster".toList by decide),
      no (show "npipe".toList ≠ "bind".toList by decide), no (show "npipe".toList ≠ "tmpfs".toList by decide),
      no (show "npipe".toList ≠ "volume".toList by decide), no (show "npipe".toList ≠ "cluster".toList by decide),
      no (show "cluster".toList ≠ "bind".toList by decide), no (show "cluster".toList ≠ "tmpfs".toList by decide),
      no (show "cluster".toList ≠ "npipe".toList by decide), no (show "cluster".toList ≠ "volume".toList by decide),
      Bool.false_eq_true, reduceCtorEq, false_and, implies_true, iff_self, true_and, and_true, yes h2]

example : ∃ m, Structs.mount.de (Derive.mapping [("type".toList, .str "tmpfs".toList), ("target".toList, .str "/t".toList)]) =
    .ok m ∧ m.isTmpfs = true ∧ m.isBind = false := ⟨_, rfl, rfl, rfl⟩

/-! ### Names of resources -/

private theorem lastValue_given {es : List (Str × Content)} {k : Str} (hn : (es.map (·.1)).Nodup) :
    lastValue es k = (given es k).head? := by
  have hp := Proofs.given_eq_of_perm (List.reverse_perm es).symm hn k
  rw [hp, lastValue, given, List.head?_map, ← List.head?_filter]

/-- The entries of a resource that is not external give the same last value to every key other than `external`. -/
private theorem given_rest {E : Env} [h : EnvOk E] {es rest : List (Str × Content)} {k : Str}
    (hk : k ≠ "external".toList) (ht : Table (es.filter (·.1 ≠ "external".toList)) rest) :
    (given (E.order rest) k).head? = lastValue es k := by
  have hn : (rest.map (·.1)).Nodup := by rw [ht.1]; exact nodup_firsts _
  rw [← Proofs.given_eq_of_perm (h.order rest).symm hn k, ← lastValue_given hn]
  rw [← get_collect_last, IndexMap.collect_ok hn, table_iff.1 ht, get_collect_last]
  exact lastValue_filter (p := fun x => decide (x ≠ "external".toList)) (decide_eq_true hk)

private theorem name_given {es : List (Str × Content)} {k : Str} {x : Option Str} 
    (h : (∃ v, given es k = [v] ∧ (Codecs.option Codecs.str).de v = .ok x) ∨ (given es k = [] ∧ some none = some x)) (t : Str) :
    x = some t ↔ (given es k).head? = some (.str t) := by
  rcases h with ⟨v, h1, h2⟩ | ⟨h1, h2⟩
  · rw [h1, List.head?_cons, Option.some.injEq]
    cases v <;> cases h2 <;> simp [eq_comm]
  · cases h2; rw [h1]; simp

private theorem resource_name {E : Env} [EnvOk E] {is : List Derive.Item} (hg : GoodFields is)
    {name : Derive.Record is → Option Str} {nameOf : Resource (Derive.Record is) → Option Str}
    (hf : ∀ es r, Spec.StandsFor (ownKeys is) es is r →
      ∀ t, name r = some t ↔ (given es "name".toList).head? = some (.str t))
    (h1 : ∀ n, nameOf (.external n) = n) (h2 : ∀ r, nameOf (.compose r) = name r)
    {es : List (Str × Content)} {r : Resource (Derive.Record is)}
    (h : (Structs.resource E is).de (Derive.mapping es) = .ok r) (t : Str) :
    nameOf r = some t ↔ lastValue es "name".toList = some (.str t) := by
  have h := Outcome.ofOption_eq_ok.1 h
  cases r with
  | external n =>
    obtain ⟨es', e, -, h3, -⟩ := (C60_external _ _ _ n).1 h
    cases mapping_same e
    rw [h1, h3]
    cases n <;> simp only [Option.map_none, Option.map_some, Option.some.injEq, Content.str.injEq, reduceCtorEq]
  | compose r =>
    obtain ⟨es', rest, e, -, ht, hd⟩ := (C60_compose _ _ _ r).1 h
    cases mapping_same e
    rw [h2, ← given_rest (E := E) (by decide) ht]
    refine hf _ r ((Proofs.decode_ok hg _ _).1 ?_) t
    cases hx : Derive.decode is (E.order rest) with
    | ok x => rw [hx] at hd; cases hd; rfl
    | err _ => rw [hx] at hd; cases hd
    | panic => rw [hx] at hd; cases hd

/-- C89: the name of a network or volume is the text at the key `name`, whether the resource is external or not. -/
theorem C89_resource_name (E : Env) [EnvOk E] (es : List (Str × Content)) :
    (∀ r, (Structs.resource E (Structs.network E)).de (Derive.mapping es) = .ok r →
      ∀ t, Structs.networkName E r = some t ↔ lastValue es "name".toList = some (.str t)) ∧
    (∀ r, (Structs.resource E Structs.volume).de (Derive.mapping es) = .ok r →
      ∀ t, Structs.volumeName r = some t ↔ lastValue es "name".toList = some (.str t)) := by
  constructor
  · intro r h t
    exact resource_name (is := Structs.network E) (name := fun r => Structs.networkName E (.compose r)) Proofs.table_good
      (fun es r h => name_given h.2.2.2.2.2.2.2.1) (fun _ => rfl) (fun _ => rfl) h t
  · intro r h t
    exact resource_name (is := Structs.volume) (name := fun r => Structs.volumeName (.compose r)) Proofs.table_good
      (fun es r h => name_given h.2.2.2.1) (fun _ => rfl) (fun _ => rfl) h t

example : ∃ r, (Structs.resource sampleEnv Structs.volume).de (Derive.mapping
    [("external".toList, .bool false), ("name".toList, .str "data".toList)]) = .ok r ∧ r.isCompose = true ∧
    Structs.volumeName r = some "data".toList := ⟨_, rfl, rfl, rfl⟩
example : ∃ r, (Structs.resource sampleEnv Structs.volume).de (Derive.mapping
    [("name".toList, .str "data".toList), ("external".toList, .bool true)]) = .ok r ∧ r.isExternal = true ∧
    Structs.volumeName r = some "data".toList := ⟨_, rfl, rfl, rfl⟩

/-! ### Images -/

/-- C89: the parts of a parsed image are a name, a tag and a digest that their own constructors accept, and make up the
text. -/
theorem C89_image_parts (s : Str) (i : Image) (h : Image.parse s = .ok i) :
    ∃ n t, i.asParts = some (n, t) ∧ i.asName = some n ∧ Image.Name.new n.inner = .ok n ∧ ValidTod t ∧
      s = n.inner ++ suffix t ∧ i.tag = some (t.bind (·.intoTag)) ∧ i.digest = some (t.bind (·.intoDigest)) := by
  obtain ⟨name, t, rfl, hN, hT, -, rfl⟩ := Proofs.parse_iff.1 h
  have hs := shows_partsOf name t
  have hn := hs.name
  rw [partsOf_name] at hn
  refine ⟨⟨name, (Proofs.mkImage (Proofs.registryOf name) name t).registryEnd⟩, t, ?_, ?_, ?_, hT, rfl, ?_, ?_⟩
  · rw [Image.asParts, Image.asName, hn, hs.tagOrDigest]; rfl
  · rw [Image.asName, hn]; rfl
  · exact Proofs.nameNew_iff.2 ⟨hN, rfl⟩
  · rw [hs.tag]
    match t with
    | none => rfl
    | some (.tag _) => rfl
    | some (.digest _) => rfl
  · rw [hs.digest]
    match t with
    | none => rfl
    | some (.tag _) => rfl
    | some (.digest _) => rfl

example : ∃ i n, Image.parse "quay.io/app:1.2".toList = .ok i ∧ i.asName = some n ∧
    i.asParts = some (n, some (.tag "1.2".toList)) ∧ n.inner = "quay.io/app".toList := ⟨_, _, rfl, rfl, rfl, rfl⟩

end Props
