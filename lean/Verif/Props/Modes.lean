import Verif.Spec.Modes
import Verif.Props.Volumes

/- C41-C43: service links, namespace modes, `volumes_from`. -/

namespace Props
open Rust Compose Spec

theorem identifierNew_map {α : Type} (f : Str → α) (s : Str) (a : α) :
    (identifierNew s).map f = .ok a ↔ Identifier s ∧ a = f s := by
  cases h : identifierNew s with
  | error e =>
    simp only [Except.map, reduceCtorEq, false_iff, not_and]
    intro hi; rw [(C01_identifier_accepts s s).2 ⟨hi, rfl⟩] at h; cases h
  | ok i =>
    obtain ⟨h1, rfl⟩ := (C01_identifier_accepts s i).1 h
    simp [Except.map, h1, eq_comm]

theorem stripPrefix_none_iff {p s : Str} : stripPrefix p s = none ↔ ¬ p <+: s := by
  rw [stripPrefix_eq_none]; simp [List.IsPrefix, eq_comm]

theorem stripSuffix_none_iff {p s : Str} : stripSuffix p s = none ↔ ¬ p <:+ s := by
  rw [stripSuffix_eq_none]; simp [List.IsSuffix, eq_comm]

/-! ### C41 links -/

/-- C41: a text is a link exactly if it is `service` or `service:alias` with an identifier as service. -/
theorem C41_link_accepts (s : Str) (l : Link) : Link.parse s = .ok l ↔ LinkText s l := by
  unfold Link.parse
  constructor
  · intro h
    match hs : splitOnce ':' s with
    | some (a, b) =>
      rw [hs] at h; simp only at h
      match hi : identifierNew a with
      | .error e => rw [hi] at h; cases h
      | .ok i =>
        rw [hi] at h; cases h
        obtain ⟨h1, rfl⟩ := (C01_identifier_accepts a i).1 hi
        obtain ⟨rfl, -⟩ := splitOnce_eq_some.1 hs
        have := LinkText.aliased (a := b) h1
        simpa using this
    | none =>
      rw [hs] at h; simp only at h
      match hi : identifierNew s with
      | .error e => rw [hi] at h; cases h
      | .ok i =>
        rw [hi] at h; cases h
        obtain ⟨h1, rfl⟩ := (C01_identifier_accepts s i).1 hi
        exact .bare h1
  · intro h
    cases h with
    | bare hi =>
      rw [splitOnce_eq_none.2 (identifier_not_mem hi (by decide))]
      simp only [(C01_identifier_accepts s s).2 ⟨hi, rfl⟩]
    | @aliased t a hi =>
      rw [(splitOnce_eq_some (a := t) (b := a)).2 ⟨by simp, identifier_not_mem hi (by decide)⟩]
      simp only [(C01_identifier_accepts t t).2 ⟨hi, rfl⟩]

example : LinkText "db:mysql:x".toList ⟨"db".toList, some "mysql:x".toList⟩ := (C41_link_accepts _ _).1 rfl

/-- C41: a link prints to text that parses back to it (its service being an identifier, as its type says). -/
theorem C41_link_round_trip (l : Link) (h : Identifier l.service) : Link.parse l.display = .ok l := by
  rw [C41_link_accepts]
  obtain ⟨s, _ | a⟩ := l
  · have := LinkText.bare h; simpa [Link.display] using this
  · have := LinkText.aliased (a := a) h; simpa [Link.display] using this

example : Link.parse (Link.display ⟨"db".toList, some "mysql".toList⟩) = .ok ⟨"db".toList, some "mysql".toList⟩ :=
  C41_link_round_trip _ ((C01_identifier_accepts "db".toList "db".toList).1 rfl).1

/-- C41: an accepted text is what its link prints as, and converting to a string is printing. -/
theorem C41_link_text (s : Str) (l : Link) (h : Link.parse s = .ok l) : l.display = s ∧ l.intoString = s := by
  rw [C41_link_accepts] at h
  cases h <;> simp [Link.display, Link.intoString]

example : Link.display ⟨"db".toList, some []⟩ = "db:".toList :=
  (C41_link_text "db:".toList ⟨"db".toList, some []⟩ rfl).1

/-- C41: a link without alias prints as the bare service name. -/
theorem C41_link_bare (service : Str) :
    (Link.mk service none).display = service ∧ (Link.mk service none).intoString = service := by
  simp [Link.display, Link.intoString]

example : Link.parse "db:mysql:x".toList = .ok ⟨"db".toList, some "mysql:x".toList⟩ := by rfl
example : Link.parse "db:".toList = .ok ⟨"db".toList, some []⟩ := by rfl
example : ∃ e, Link.parse ":db".toList = .error e := ⟨_, rfl⟩
example : Identifier (Link.mk "db".toList (some "mysql".toList)).service :=
  ((C01_identifier_accepts "db".toList "db".toList).1 rfl).1
example : (Link.mk "db".toList (some "mysql".toList)).display = "db:mysql".toList := by rfl

/-! ### C42 namespace modes -/

/-- C42: `ipc` accepts exactly `shareable`, `service:` followed by an identifier, and texts not starting so. -/
theorem C42_ipc_accepts (s : Str) (m : Ipc) : Ipc.parse s = .ok m ↔ IpcText s m := by
  unfold Ipc.parse
  split
  · rename_i h; subst h
    constructor
    · intro h; cases h; exact .shareable
    · intro h
      generalize hs : str!"shareable" = s at h
      cases h with
      | shareable => rfl
      | service hi => simp at hs
      | other h1 h2 => exact absurd hs.symm h1
  · rename_i hne
    match hp : stripPrefix str!"service:" s with
    | some i =>
      obtain rfl := stripPrefix_eq_some.1 hp
      simp only [identifierNew_map]
      constructor
      · rintro ⟨hi, rfl⟩; exact .service hi
      · intro h
        generalize hs : str!"service:" ++ i = s at h
        cases h with
        | shareable => exact absurd hs hne
        | service hi => have := List.append_cancel_left hs; subst this; exact ⟨hi, rfl⟩
        | other h1 h2 => exact absurd ⟨_, hs⟩ h2
    | none =>
      have hp' := stripPrefix_none_iff.1 hp
      simp only
      constructor
      · intro h; cases h; exact .other hne hp'
      · intro h
        cases h with
        | shareable => exact absurd rfl hne
        | service hi => exact absurd ⟨_, rfl⟩ hp'
        | other => rfl

example : IpcText "service:db".toList (.service "db".toList) := (C42_ipc_accepts _ _).1 rfl

/-- C42: an accepted `ipc` text is what its value prints as. -/
theorem C42_ipc_text (s : Str) (m : Ipc) (h : Ipc.parse s = .ok m) : m.display = s := by
  rw [C42_ipc_accepts] at h; cases h <;> rfl

example : (Ipc.service "db".toList).display = "service:db".toList := C42_ipc_text _ _ rfl

/-- C42: an `ipc` value prints to text that parses back to it exactly if it is the parse of some text; in other words
the only ones that do not are `Other` values holding the text of another value. -/
theorem C42_ipc_round_trip (m : Ipc) :
    Ipc.parse m.display = .ok m ↔
      match m with
      | .shareable => True
      | .service i => Identifier i
      | .other s => s ≠ "shareable".toList ∧ ¬ "service:".toList <+: s := by
  rw [C42_ipc_accepts]
  cases m with
  | shareable => exact ⟨fun _ => trivial, fun _ => .shareable⟩
  | service i =>
    refine ⟨fun h => ?_, .service⟩
    generalize hs : (Ipc.service i).display = s at h
    cases h; assumption
  | other s =>
    refine ⟨fun h => ?_, fun h => .other h.1 h.2⟩
    generalize hs : (Ipc.other s).display = s' at h
    cases h; exact ⟨by assumption, by assumption⟩

example : Ipc.parse (Ipc.other "host".toList).display = .ok (.other "host".toList) :=
  (C42_ipc_round_trip (.other "host".toList)).2 ⟨by decide, by decide⟩

/-- C42: `service:x` is accepted for `ipc` exactly if `x` is an identifier. -/
theorem C42_ipc_service (x : Str) : (∃ m, Ipc.parse ("service:".toList ++ x) = .ok m) ↔ Identifier x := by
  simp only [C42_ipc_accepts]
  refine ⟨fun ⟨m, h⟩ => ?_, fun h => ⟨_, .service h⟩⟩
  generalize hs : "service:".toList ++ x = s at h
  cases h with
  | shareable => simp at hs
  | service hi => have := List.append_cancel_left hs; subst this; exact hi
  | other h1 h2 => exact absurd ⟨_, hs⟩ h2

example : ∃ m, Ipc.parse "service:a.b".toList = .ok m :=
  (C42_ipc_service "a.b".toList).2 ((C01_identifier_accepts "a.b".toList "a.b".toList).1 rfl).1

/-- C42: `network_mode` accepts exactly `none`, `host`, `service:` or `container:` followed by an identifier, and
texts not starting so. -/
theorem C42_network_mode_accepts (s : Str) (m : NetworkMode) : NetworkMode.parse s = .ok m ↔ NetworkModeText s m := by
  unfold NetworkMode.parse
  split
  · rename_i h; subst h
    constructor
    · intro h; cases h; exact .none
    · intro h
      generalize hs : str!"none" = s at h
      cases h with
      | none => rfl
      | host => simp at hs
      | service hi => simp at hs
      | container hi => simp at hs
      | other h1 h2 => exact absurd hs.symm h1
  split
  · rename_i h; subst h
    constructor
    · intro h; cases h; exact .host
    · intro h
      generalize hs : str!"host" = s at h
      cases h with
      | host => rfl
      | none => simp at hs
      | service hi => simp at hs
      | container hi => simp at hs
      | other h1 h2 => exact absurd hs.symm h2
  rename_i hne hne2
  match hp : stripPrefix str!"service:" s with
  | some i =>
    obtain rfl := stripPrefix_eq_some.1 hp
    simp only [identifierNew_map]
    constructor
    · rintro ⟨hi, rfl⟩; exact .service hi
    · intro h
      generalize hs : str!"service:" ++ i = s at h
      cases h with
      | none => exact absurd hs hne
      | host => exact absurd hs hne2
      | service hi => have := List.append_cancel_left hs; subst this; exact ⟨hi, rfl⟩
      | container hi => simp at hs
      | other h1 h2 h3 => exact absurd ⟨_, hs⟩ h3
  | none =>
    have hp' := stripPrefix_none_iff.1 hp
    simp only
    match hp2 : stripPrefix str!"container:" s with
    | some i =>
      obtain rfl := stripPrefix_eq_some.1 hp2
      simp only [identifierNew_map]
      constructor
      · rintro ⟨hi, rfl⟩; exact .container hi
      · intro h
        generalize hs : str!"container:" ++ i = s at h
        cases h with
        | none => exact absurd hs hne
        | host => exact absurd hs hne2
        | container hi => have := List.append_cancel_left hs; subst this; exact ⟨hi, rfl⟩
        | service hi => simp at hs
        | other h1 h2 h3 h4 => exact absurd ⟨_, hs⟩ h4
    | none =>
      have hp2' := stripPrefix_none_iff.1 hp2
      simp only
      constructor
      · intro h; cases h; exact .other hne hne2 hp' hp2'
      · intro h
        cases h with
        | none => exact absurd rfl hne
        | host => exact absurd rfl hne2
        | service hi => exact absurd ⟨_, rfl⟩ hp'
        | container hi => exact absurd ⟨_, rfl⟩ hp2'
        | other => rfl

example : NetworkModeText "container:db".toList (.container "db".toList) := (C42_network_mode_accepts _ _).1 rfl

/-- C42: an accepted `network_mode` text is what its value prints as. -/
theorem C42_network_mode_text (s : Str) (m : NetworkMode) (h : NetworkMode.parse s = .ok m) : m.display = s := by
  rw [C42_network_mode_accepts] at h; cases h <;> rfl

example : (NetworkMode.container "db".toList).display = "container:db".toList := C42_network_mode_text _ _ rfl

/-- C42: a `network_mode` value prints to text that parses back to it exactly if it is not an `Other` value holding the
text of another value. -/
theorem C42_network_mode_round_trip (m : NetworkMode) :
    NetworkMode.parse m.display = .ok m ↔
      match m with
      | .none | .host => True
      | .service i | .container i => Identifier i
      | .other s => s ≠ "none".toList ∧ s ≠ "host".toList ∧ ¬ "service:".toList <+: s ∧ ¬ "container:".toList <+: s := by
  rw [C42_network_mode_accepts]
  cases m with
  | none => exact ⟨fun _ => trivial, fun _ => .none⟩
  | host => exact ⟨fun _ => trivial, fun _ => .host⟩
  | service i =>
    refine ⟨fun h => ?_, .service⟩
    generalize hs : (NetworkMode.service i).display = s at h
    cases h; assumption
  | container i =>
    refine ⟨fun h => ?_, .container⟩
    generalize hs : (NetworkMode.container i).display = s at h
    cases h; assumption
  | other s =>
    refine ⟨fun h => ?_, fun h => .other h.1 h.2.1 h.2.2.1 h.2.2.2⟩
    generalize hs : (NetworkMode.other s).display = s' at h
    cases h; exact ⟨by assumption, by assumption, by assumption, by assumption⟩

example : NetworkMode.parse (NetworkMode.other "bridge".toList).display = .ok (.other "bridge".toList) :=
  (C42_network_mode_round_trip (.other "bridge".toList)).2 ⟨by decide, by decide, by decide, by decide⟩

/-- C42: `service:x` is accepted for `network_mode` exactly if `x` is an identifier, and so is `container:x`. -/
theorem C42_network_mode_service (x : Str) :
    ((∃ m, NetworkMode.parse ("service:".toList ++ x) = .ok m) ↔ Identifier x) ∧
    ((∃ m, NetworkMode.parse ("container:".toList ++ x) = .ok m) ↔ Identifier x) := by
  simp only [C42_network_mode_accepts]
  refine ⟨⟨fun ⟨m, h⟩ => ?_, fun h => ⟨_, .service h⟩⟩, ⟨fun ⟨m, h⟩ => ?_, fun h => ⟨_, .container h⟩⟩⟩
  · generalize hs : "service:".toList ++ x = s at h
    cases h with
    | none => simp at hs
    | host => simp at hs
    | service hi => have := List.append_cancel_left hs; subst this; exact hi
    | container hi => simp at hs
    | other h1 h2 h3 h4 => exact absurd ⟨_, hs⟩ h3
  · generalize hs : "container:".toList ++ x = s at h
    cases h with
    | none => simp at hs
    | host => simp at hs
    | container hi => have := List.append_cancel_left hs; subst this; exact hi
    | service hi => simp at hs
    | other h1 h2 h3 h4 => exact absurd ⟨_, hs⟩ h4

example : ∃ m, NetworkMode.parse "container:a.b".toList = .ok m :=
  (C42_network_mode_service "a.b".toList).2.2 ((C01_identifier_accepts "a.b".toList "a.b".toList).1 rfl).1

/-- C42: endpoint modes are read as documented. -/
theorem C42_endpoint_mode_accepts (s : Str) (m : EndpointMode) : EndpointMode.parse s = m ↔ EndpointModeText s m := by
  unfold EndpointMode.parse
  constructor
  · rintro rfl
    split
    · rename_i h; subst h; exact .vip
    split
    · rename_i h; subst h; exact .dnsrr
    · exact .other ‹_› ‹_›
  · intro h
    cases h with
    | vip => rfl
    | dnsrr => rfl
    | other h1 h2 => exact (if_neg h1).trans (if_neg h2)

example : EndpointModeText "dnsrr".toList .dnsrr := (C42_endpoint_mode_accepts _ _).1 rfl

/-- C42: an endpoint mode read from a text prints as that text. -/
theorem C42_endpoint_mode_text (s : Str) : (EndpointMode.parse s).asStr = s := by
  have := (C42_endpoint_mode_accepts s _).1 rfl
  generalize EndpointMode.parse s = m at this
  cases this <;> rfl

example : EndpointMode.parse "VIP".toList = .other "VIP".toList ∧ (EndpointMode.parse "vip".toList).asStr = "vip".toList :=
  ⟨rfl, C42_endpoint_mode_text _⟩

/-- C42: an endpoint mode survives printing and reading exactly if it is not `Other` with a documented name. -/
theorem C42_endpoint_mode_round_trip (m : EndpointMode) :
    EndpointMode.parse m.asStr = m ↔ m ≠ .other "vip".toList ∧ m ≠ .other "dnsrr".toList := by
  cases m with
  | vip => simp [EndpointMode.parse, EndpointMode.asStr]
  | dnsrr => simp [EndpointMode.parse, EndpointMode.asStr]
  | other s =>
    rw [C42_endpoint_mode_accepts]
    constructor
    · intro h
      generalize hs : (EndpointMode.other s).asStr = s' at h
      cases h; constructor <;> (intro h; cases h; simp_all)
    · rintro ⟨h1, h2⟩; exact .other (fun h => h1 (by rw [← h]; rfl)) (fun h => h2 (by rw [← h]; rfl))

example : EndpointMode.parse (EndpointMode.other "lb".toList).asStr = .other "lb".toList :=
  (C42_endpoint_mode_round_trip _).2 (by decide)

/-- C42: capabilities are read as documented. -/
theorem C42_capability_accepts (s : Str) (m : Capability) : Capability.parse s = m ↔ CapabilityText s m := by
  unfold Capability.parse
  constructor
  · rintro rfl
    split
    · rename_i h; subst h; exact .gpu
    split
    · rename_i h; subst h; exact .tpu
    · exact .other ‹_› ‹_›
  · intro h
    cases h with
    | gpu => rfl
    | tpu => rfl
    | other h1 h2 => exact (if_neg h1).trans (if_neg h2)

example : CapabilityText "tpu".toList .tpu := (C42_capability_accepts _ _).1 rfl

/-- C42: a capability read from a text prints as that text. -/
theorem C42_capability_text (s : Str) : (Capability.parse s).asStr = s := by
  have := (C42_capability_accepts s _).1 rfl
  generalize Capability.parse s = m at this
  cases this <;> rfl

example : Capability.parse "GPU".toList = .other "GPU".toList ∧ (Capability.parse "gpu".toList).asStr = "gpu".toList :=
  ⟨rfl, C42_capability_text _⟩

/-- C42: a capability survives printing and reading exactly if it is not `Other` with a documented name. -/
theorem C42_capability_round_trip (m : Capability) :
    Capability.parse m.asStr = m ↔ m ≠ .other "gpu".toList ∧ m ≠ .other "tpu".toList := by
  cases m with
  | gpu => simp [Capability.parse, Capability.asStr]
  | tpu => simp [Capability.parse, Capability.asStr]
  | other s =>
    rw [C42_capability_accepts]
    constructor
    · intro h
      generalize hs : (Capability.other s).asStr = s' at h
      cases h; constructor <;> (intro h; cases h; simp_all)
    · rintro ⟨h1, h2⟩; exact .other (fun h => h1 (by rw [← h]; rfl)) (fun h => h2 (by rw [← h]; rfl))

example : Capability.parse (Capability.other "nvidia".toList).asStr = .other "nvidia".toList :=
  (C42_capability_round_trip _).2 (by decide)

/-- C42: network drivers are read as documented. -/
theorem C42_driver_accepts (s : Str) (m : Driver) : Driver.parse s = m ↔ DriverText s m := by
  unfold Driver.parse
  constructor
  · rintro rfl
    split
    · rename_i h; subst h; exact .host
    split
    · rename_i h; subst h; exact .none
    · exact .other ‹_› ‹_›
  · intro h
    cases h with
    | host => rfl
    | none => rfl
    | other h1 h2 => exact (if_neg h1).trans (if_neg h2)

example : DriverText "overlay".toList (.other "overlay".toList) := (C42_driver_accepts _ _).1 rfl

/-- C42: a network driver read from a text prints as that text. -/
theorem C42_driver_text (s : Str) : (Driver.parse s).asStr = s := by
  have := (C42_driver_accepts s _).1 rfl
  generalize Driver.parse s = m at this
  cases this <;> rfl

example : Driver.parse "Default".toList = .other "Default".toList ∧ (Driver.parse "default".toList).asStr = "default".toList :=
  ⟨rfl, C42_driver_text _⟩

/-- C42: a network driver survives printing and reading exactly if it is not `Other` with a documented name. -/
theorem C42_driver_round_trip (m : Driver) :
    Driver.parse m.asStr = m ↔ m ≠ .other "host".toList ∧ m ≠ .other "none".toList := by
  cases m with
  | host => simp [Driver.parse, Driver.asStr]
  | none => simp [Driver.parse, Driver.asStr]
  | other s =>
    rw [C42_driver_accepts]
    constructor
    · intro h
      generalize hs : (Driver.other s).asStr = s' at h
      cases h; constructor <;> (intro h; cases h; simp_all)
    · rintro ⟨h1, h2⟩; exact .other (fun h => h1 (by rw [← h]; rfl)) (fun h => h2 (by rw [← h]; rfl))

example : Ipc.parse "service:db".toList = .ok (.service "db".toList) := by rfl
example : ∃ e, Ipc.parse "service:-".toList = .error e := ⟨_, rfl⟩
example : Ipc.parse "shareable ".toList = .ok (.other "shareable ".toList) := by rfl
example : Ipc.parse (Ipc.other "service:db".toList).display ≠ .ok (.other "service:db".toList) := by decide
example : NetworkMode.parse "container:db".toList = .ok (.container "db".toList) := by rfl
example : NetworkMode.parse "bridge".toList = .ok (.other "bridge".toList) := by rfl
example : EndpointMode.parse "dnsrr".toList = .dnsrr := by rfl
example : Capability.parse "tpu".toList = .tpu := by rfl
example : Driver.parse "overlay".toList = .other "overlay".toList := by rfl

/-! ### C43 `volumes_from` -/

theorem volumesFromSource_iff (s : Str) (v : VolumesFromSource) :
    VolumesFromSource.parse s = .ok v ↔ VolumesFromSourceText s v := by
  unfold VolumesFromSource.parse
  match hp : stripPrefix str!"container:" s with
  | some i =>
    obtain rfl := stripPrefix_eq_some.1 hp
    simp only [identifierNew_map]
    constructor
    · rintro ⟨hi, rfl⟩; exact .container hi
    · intro h
      generalize hs : str!"container:" ++ i = s at h
      cases h with
      | container hi => have := List.append_cancel_left hs; subst this; exact ⟨hi, rfl⟩
      | service hi => subst hs; exact absurd (by simp) (identifier_not_mem (c := ':') hi (by decide))
  | none =>
    simp only [identifierNew_map]
    constructor
    · rintro ⟨hi, rfl⟩; exact .service hi
    · intro h
      cases h with
      | service hi => exact ⟨hi, rfl⟩
      | container hi => exact absurd ⟨_, rfl⟩ (stripPrefix_none_iff.1 hp)

theorem map_ok {ε α β : Type} {f : α → β} {x : Except ε α} {b : β} :
    x.map f = .ok b ↔ ∃ a, x = .ok a ∧ b = f a := by
  cases x <;> simp [Except.map, eq_comm]

theorem suffix_inj {a b p q : Str} (h : a ++ p = b ++ q) (hl : p.length = q.length) : a = b ∧ p = q :=
  List.append_inj' h hl

/-- C43: a text is accepted exactly if it has the documented form. -/
theorem C43_volumes_from_accepts (s : Str) (v : VolumesFrom) : VolumesFrom.parse s = .ok v ↔ VolumesFromText s v := by
  unfold VolumesFrom.parse
  match hro : stripSuffix str!":ro" s with
  | some t =>
    obtain rfl := stripSuffix_eq_some.1 hro
    simp only [map_ok, volumesFromSource_iff]
    constructor
    · rintro ⟨a, ha, rfl⟩; exact .ro ha
    · intro h
      generalize hs : t ++ str!":ro" = s at h
      cases h with
      | ro h => obtain ⟨rfl, -⟩ := suffix_inj hs rfl; exact ⟨_, h, rfl⟩
      | rw h => obtain ⟨-, h⟩ := suffix_inj hs rfl; simp at h
      | plain h h1 => exact absurd ⟨_, hs⟩ h1
  | none =>
    have hro' := stripSuffix_none_iff.1 hro
    simp only
    match hrw : stripSuffix str!":rw" s with
    | some t =>
      obtain rfl := stripSuffix_eq_some.1 hrw
      simp only [map_ok, volumesFromSource_iff]
      constructor
      · rintro ⟨a, ha, rfl⟩; exact .rw ha
      · intro h
        generalize hs : t ++ str!":rw" = s at h
        cases h with
        | rw h => obtain ⟨rfl, -⟩ := suffix_inj hs rfl; exact ⟨_, h, rfl⟩
        | ro h => obtain ⟨-, h⟩ := suffix_inj hs rfl; simp at h
        | plain h h1 h2 => exact absurd ⟨_, hs⟩ h2
    | none =>
      have hrw' := stripSuffix_none_iff.1 hrw
      simp only [map_ok, volumesFromSource_iff]
      constructor
      · rintro ⟨a, ha, rfl⟩; exact .plain ha hro' hrw'
      · intro h
        cases h with
        | rw h => exact absurd ⟨_, rfl⟩ hrw'
        | ro h => exact absurd ⟨_, rfl⟩ hro'
        | plain h h1 h2 => exact ⟨_, h, rfl⟩

example : VolumesFromText "container:db:ro".toList ⟨.container "db".toList, true⟩ := (C43_volumes_from_accepts _ _).1 rfl

theorem volumesFromSource_text {s : Str} {v : VolumesFromSource} (h : VolumesFromSourceText s v) : v.display = s := by
  cases h <;> rfl

/-- C43: an accepted text is what its entry prints as, up to a redundant `:rw`. -/
theorem C43_volumes_from_text (s : Str) (v : VolumesFrom) (h : VolumesFrom.parse s = .ok v) :
    s = v.display ∨ (v.readOnly = false ∧ s = v.display ++ ":rw".toList) := by
  rw [C43_volumes_from_accepts] at h
  cases h with
  | ro h => left; simp [VolumesFrom.display, volumesFromSource_text h]
  | rw h => right; simp [VolumesFrom.display, volumesFromSource_text h]
  | plain h => left; simp [VolumesFrom.display, volumesFromSource_text h]

example : "db:rw".toList = VolumesFrom.display ⟨.service "db".toList, false⟩ ∨
    (VolumesFrom.readOnly ⟨.service "db".toList, false⟩ = false ∧
      "db:rw".toList = VolumesFrom.display ⟨.service "db".toList, false⟩ ++ ":rw".toList) :=
  C43_volumes_from_text _ _ rfl

/-- The source of a `volumes_from` entry names a service or container by an identifier. -/
def VolumesFromOk (v : VolumesFrom) : Prop :=
  match v.source with
  | .service i | .container i => Identifier i

theorem volumesFromOk_text {v : VolumesFrom} (h : VolumesFromOk v) :
    VolumesFromSourceText v.source.display v.source := by
  obtain ⟨_ | _, _⟩ := v
  · exact .service h
  · exact .container h

theorem identifier_suffix {i p : Str} (h : Identifier i) (hp : ':' ∈ p) : ¬ p <:+ i := fun hs =>
  identifier_not_mem h (c := ':') (by decide) (hs.subset hp)

theorem container_suffix {i : Str} {a b : Char} (h : Identifier i) (hs : [':', a, b] <:+ str!"container:" ++ i) :
    i = [a, b] := by
  have hne : i.length = 2 := by
    by_contra hlen
    rcases Nat.lt_or_gt_of_ne hlen with hl | hl
    · have hne := (identifier_head h)
      obtain ⟨c, cs, rfl, -⟩ := hne
      obtain rfl : cs = [] := List.length_eq_zero_iff.1 (by simp at hl; omega)
      have := hs
      rw [show str!"container:" ++ [c] = (str!"containe") ++ ['r', ':', c] by rfl] at this
      obtain ⟨t, ht⟩ := this
      have := (suffix_inj ht rfl).2
      simp at this
    · have : [':', a, b] <:+ i := List.suffix_of_suffix_length_le hs ⟨str!"container:", rfl⟩ (by simp; omega)
      exact identifier_suffix h (by simp) this
  obtain ⟨t, ht⟩ := hs
  match i, hne with
  | [c, d], _ =>
    rw [show str!"container:" ++ [c, d] = (str!"container") ++ [':', c, d] by rfl] at ht
    have := (suffix_inj ht rfl).2
    simp at this; simp [this]

/-- C43 (partial: false for two entries, see below): an entry prints to text that parses back to it exactly if it is
not a read-write mount from a container called `ro` or `rw`. -/
theorem C43_volumes_from_round_trip_partial (v : VolumesFrom) (h : VolumesFromOk v) :
    VolumesFrom.parse v.display = .ok v ↔
      v ≠ ⟨.container "ro".toList, false⟩ ∧ v ≠ ⟨.container "rw".toList, false⟩ := by
  constructor
  · intro hr
    constructor <;> (rintro rfl; revert hr; decide)
  · rintro ⟨h1, h2⟩
    rw [C43_volumes_from_accepts]
    have ht := volumesFromOk_text h
    obtain ⟨src, ro⟩ := v
    cases ro with
    | true => exact .ro ht
    | false =>
      have : VolumesFrom.display ⟨src, false⟩ = src.display := by simp [VolumesFrom.display]
      rw [this]
      cases src with
      | service i => exact .plain ht (identifier_suffix h (by simp)) (identifier_suffix h (by simp))
      | container i =>
        refine .plain ht (fun hs => h1 ?_) (fun hs => h2 ?_)
        · rw [container_suffix h hs]; rfl
        · rw [container_suffix h hs]; rfl

example : VolumesFrom.parse (VolumesFrom.display ⟨.container "db".toList, true⟩) = .ok ⟨.container "db".toList, true⟩ :=
  (C43_volumes_from_round_trip_partial ⟨.container "db".toList, true⟩
    ((C01_identifier_accepts "db".toList "db".toList).1 rfl).1).2 (by decide)

/-- C43 is false: mounting read-write from a container called `ro` prints as `container:ro`, which reads as a
read-only mount from a service called `container`. -/
theorem C43_volumes_from_round_trip_false :
    VolumesFromOk ⟨.container "ro".toList, false⟩ ∧
    VolumesFrom.parse (VolumesFrom.mk (.container "ro".toList) false).display
      = .ok ⟨.service "container".toList, true⟩ ∧
    VolumesFromOk ⟨.container "rw".toList, false⟩ ∧
    VolumesFrom.parse (VolumesFrom.mk (.container "rw".toList) false).display
      = .ok ⟨.service "container".toList, false⟩ := by
  refine ⟨?_, rfl, ?_, rfl⟩
  · exact ((C01_identifier_accepts "ro".toList "ro".toList).1 rfl).1
  · exact ((C01_identifier_accepts "rw".toList "rw".toList).1 rfl).1

example : VolumesFrom.parse "container:db:ro".toList = .ok ⟨.container "db".toList, true⟩ := by rfl
example : VolumesFrom.parse "db:rw".toList = .ok ⟨.service "db".toList, false⟩ := by rfl
example : ∃ e, VolumesFrom.parse "db:r".toList = .error e := ⟨_, rfl⟩
example : VolumesFromOk ⟨.container "db".toList, true⟩ :=
  ((C01_identifier_accepts "db".toList "db".toList).1 rfl).1

end Props
