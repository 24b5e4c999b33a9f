import Verif.Proofs.StructKnown
import Verif.Props.Duration
import Verif.Props.Ports

/- C70 to C74: how whole structs, up to a Compose file, are read and written.  `structs E` (Verif/Spec/Structs.lean) lists
all structs with their keys. -/

namespace Props
open Rust Compose Compose.Derive Compose.Codecs Compose.Structs Spec Proofs
open Props hiding mapping entriesOf_mapping

/-! ### A choice for what is taken from other crates -/

/-- Two addresses, written as `10.0.0.1` and `::1`. -/
def sampleText : TextType where
  Ty := Bool
  eq := inferInstance
  parse s := if s = "10.0.0.1".toList then some true else if s = "::1".toList then some false else none
  «show» b := if b then "10.0.0.1".toList else "::1".toList

/-- A choice for what is taken from other crates; the `HashMap` gives its entries in reverse. -/
def sampleEnv : Env where
  ip := sampleText
  ip4 := sampleText
  ip6 := sampleText
  ipNet := sampleText
  float := ⟨fun _ => none, fun _ => []⟩
  url _ := none
  order := List.reverse
  valueEq a b := match a, b with
    | .str a, .str b => a = b
    | .unit, .unit => true
    | _, _ => false

theorem sampleText_reads : ReadsBack sampleText := fun x => by cases x <;> rfl

instance : EnvOk sampleEnv where
  ip := sampleText_reads
  ip4 := sampleText_reads
  ip6 := sampleText_reads
  ipNet := sampleText_reads
  no_slash x := by cases x <;> decide
  no_bracket x := by cases x <;> decide
  order := List.reverse_perm

/-! ### C70: which mappings are read as which structs -/

theorem givenAs_seq {p : Prop} {ks : List Str} {vs : List Content} {es : List (Str × Content)} :
    GivenAs p ks (.seq vs) es ↔ p ∧ vs.length ≤ ks.length ∧ es = ks.zip vs := by
  constructor
  · intro h
    generalize hc : Content.seq vs = c at h
    cases h with
    | mapping => cases hc
    | list h1 h2 => cases hc; exact ⟨h1, h2, rfl⟩
  · rintro ⟨h1, h2, rfl⟩
    exact .list h1 h2

theorem givenAs_other {p : Prop} {ks : List Str} {c : Content} (hc : ∀ vs, c ≠ .seq vs) {es : List (Str × Content)} :
    GivenAs p ks c es ↔ c = Derive.mapping es := by
  constructor
  · intro h
    cases h with
    | mapping => rfl
    | list h1 h2 => exact absurd rfl (hc _)
  · rintro rfl
    exact .mapping

/-- A struct is read from what gives its entries. -/
theorem struct_de_iff {is : List Item} (hg : GoodFields is) {c : Content} {r : Record is} :
    (struct is).de c = .ok r ↔ ∃ es, GivenAs (noFlat is = true) (ownKeys is) c es ∧ StandsFor (ownKeys is) es is r := by
  by_cases hc : ∀ vs, c ≠ .seq vs
  · rw [struct_de_other hc, Outcome.bind_eq_ok]
    refine exists_congr fun es => ?_
    rw [decode_ok hg, Outcome.ofOption_eq_ok, entriesOf_iff, givenAs_other hc]
    rfl
  · obtain ⟨vs, rfl⟩ : ∃ vs, c = .seq vs := by simpa using hc
    show (if is.all Item.isField then decodeSeq is vs else .err ()) = .ok r ↔ _
    simp only [givenAs_seq]
    by_cases hf : noFlat is = true
    · rw [if_pos (all_fields hf), decodeSeq_iff (own := ownKeys is) hf hg.distinct]
      exact ⟨fun h => ⟨_, ⟨hf, h.1, rfl⟩, h.2⟩, fun ⟨_, ⟨_, h1, h2⟩, h3⟩ => ⟨h1, h2 ▸ h3⟩⟩
    · rw [if_neg fun h => hf (noFlat_iff.1 h)]
      exact ⟨fun h => (by cases h), fun ⟨_, ⟨h, _⟩, _⟩ => absurd h hf⟩

/-- A struct with flattened fields is read from mappings only. -/
theorem struct_de_flat {is : List Item} (hg : GoodFields is) (hf : noFlat is = false) {c : Content} {r : Record is} :
    (struct is).de c = .ok r ↔ ∃ es, c = Derive.mapping es ∧ StandsFor (ownKeys is) es is r := by
  rw [struct_de_iff hg]
  refine exists_congr fun es => and_congr_left fun _ => ⟨fun h => ?_, fun h => h ▸ .mapping⟩
  cases h with
  | mapping => rfl
  | list h => simp [hf] at h

theorem getLast_flat {is : List Item} {f : Flat} (h : is.getLast? = some (.flat f)) : ¬ noFlat is = true := fun hf => by
  have := List.all_eq_true.1 (all_fields hf) _ (List.mem_of_getLast? h)
  cases this

/-- C70: a struct is read from the mappings that stand for it: every key of a field occurs at most once, its value stands
for the value of the field, and a field whose key is missing has its default.  A struct that ignores unknown keys is also read
from the list of the values of its keys, in order, where values may be missing at the end. -/
theorem C70_reads (E : Env) (s : StructInfo) (hs : s ∈ structs E) (c : Content) (r : Record s.fields) :
    (struct s.fields).de c = .ok r ↔
      ∃ es, GivenAs (s.rest = .ignored) s.keyTexts c es ∧ StandsFor s.keyTexts es s.fields r := by
  have k := all_known E s hs
  rw [struct_de_iff k.good, k.keys]
  have : (noFlat s.fields = true) ↔ s.rest = .ignored := by
    have h := k.rest
    cases he : s.rest with
    | ignored => rw [he] at h; exact ⟨fun _ => rfl, fun _ => h⟩
    | extensions => rw [he] at h; exact ⟨fun hf => absurd hf (getLast_flat h), fun h => by cases h⟩
    | common => rw [he] at h; exact ⟨fun hf => absurd hf (getLast_flat h), fun h => by cases h⟩
  simp only [this]

/-- A network with an extension. -/
def sampleNetwork : List (Str × Content) :=
  [("driver".toList, .str "bridge".toList), ("x-a".toList, .u64 1), ("internal".toList, .bool true)]

/-- What it is read as. -/
def sampleNetworkRecord : Record (Structs.network sampleEnv) :=
  (some (.other "bridge".toList), [], false, false, none, true, .list [], none, [("x-a".toList, .u64 1)], ())

/-- Its description. -/
def networkInfo (E : Env) : StructInfo :=
  ⟨Structs.network E, ["driver", "driver_opts", "attachable", "enable_ipv6", "ipam", "internal", "labels", "name"],
    [], [], .extensions, false⟩

theorem networkInfo_mem (E : Env) : networkInfo E ∈ structs E := by simp [structs, parts, networkInfo]

/-- A network is read. -/
example : (struct (Structs.network sampleEnv)).de (Derive.mapping sampleNetwork) = .ok sampleNetworkRecord := rfl

/-- A Compose file. -/
def sampleFile : List (Str × Content) :=
  [("name".toList, .str "demo".toList),
    ("services".toList, Derive.mapping [("web".toList, Derive.mapping [
      ("image".toList, .str "nginx".toList),
      ("ports".toList, .seq [.str "8080:80".toList]),
      ("volumes".toList, .seq [Derive.mapping [("type".toList, .str "tmpfs".toList), ("target".toList, .str "/tmp".toList)]]),
      ("stop_grace_period".toList, .str "1m30s".toList),
      ("networks".toList, .seq [.str "n".toList])])]),
    ("networks".toList, Derive.mapping [("n".toList, Derive.mapping sampleNetwork)]),
    ("x-b".toList, .unit)]

set_option maxRecDepth 10000 in
/-- A Compose file is read. -/
example : ∃ r, (struct (Structs.compose sampleEnv)).de (Derive.mapping sampleFile) = .ok r := ⟨_, rfl⟩

set_option maxRecDepth 10000 in
/-- A misspelt key is an error. -/
example : (struct (Structs.compose sampleEnv)).de (Derive.mapping (("service".toList, .unit) :: sampleFile)) = .err () := rfl

theorem standsFor_of {E : Env} {s : StructInfo} (hs : s ∈ structs E) {es : List (Str × Content)} {r : Record s.fields}
    (h : (struct s.fields).de (Derive.mapping es) = .ok r) : StandsFor s.keyTexts es s.fields r := by
  have k := all_known E s hs
  rw [struct_de_mapping, decode_ok k.good, k.keys] at h
  exact h

theorem de_of_standsFor {E : Env} {s : StructInfo} (hs : s ∈ structs E) {es : List (Str × Content)} {r : Record s.fields}
    (h : StandsFor s.keyTexts es s.fields r) : (struct s.fields).de (Derive.mapping es) = .ok r := by
  have k := all_known E s hs
  rw [struct_de_mapping, decode_ok k.good, k.keys]
  exact h

/-- C70: in a mapping that is read as a struct, every key of a field is given at most once. -/
theorem C70_given_once (E : Env) (s : StructInfo) (hs : s ∈ structs E) (es : List (Str × Content)) (r : Record s.fields)
    (h : (struct s.fields).de (Derive.mapping es) = .ok r) : ∀ k ∈ s.keyTexts, (given es k).length ≤ 1 := by
  have k := all_known E s hs
  rw [← k.keys]
  exact standsFor_once k.keyed (standsFor_of hs h)

/-- A repeated key is an error. -/
example : (struct (Structs.network sampleEnv)).de (Derive.mapping (sampleNetwork ++ [("driver".toList, .str "host".toList)])) =
    .err () := rfl

/-- C70: every required key is given. -/
theorem C70_required (E : Env) (s : StructInfo) (hs : s ∈ structs E) (es : List (Str × Content)) (r : Record s.fields)
    (h : (struct s.fields).de (Derive.mapping es) = .ok r) : ∀ k ∈ s.required, ∃ v, given es k.toList = [v] := by
  have kn := all_known E s hs
  intro k hk
  have hk : k.toList ∈ requiredKeys s.fields := kn.required ▸ List.mem_map_of_mem hk
  obtain ⟨f, h1, h2, h3⟩ := mem_requiredKeys.1 hk
  rw [← h2]
  exact List.length_eq_one_iff.1 ((standsFor_given (standsFor_of hs h) h1).2.1 h3)

/-- The required keys of an include. -/
example : (struct Structs.«include»).de (Derive.mapping [("path".toList, .str "a.yaml".toList), ("more".toList, .unit)]) =
    .ok (.item "a.yaml".toList, none, none, ()) ∧
    (struct Structs.«include»).de (Derive.mapping [("env_file".toList, .str "a.env".toList)]) = .err () := ⟨rfl, rfl⟩

/-- C70: of the keys of which exactly one must be given, one is given and the others are not. -/
theorem C70_one_of (E : Env) (s : StructInfo) (hs : s ∈ structs E) (es : List (Str × Content)) (r : Record s.fields)
    (h : (struct s.fields).de (Derive.mapping es) = .ok r) (ho : s.oneOf ≠ []) :
    ∃ k ∈ s.oneOf, (∃ v, Given es k.toList v) ∧ ∀ k' ∈ s.oneOf, k' ≠ k → NotGiven es k'.toList := by
  have kn := all_known E s hs
  obtain h1 | ⟨f, h1, h2⟩ := kn.oneOf
  · exact absurd h1 ho
  · obtain ⟨t, h3, h4, h5⟩ := standsFor_exact kn.keyed (standsFor_of hs h) h1 h2 (by simpa using ho)
    obtain ⟨k, h6, rfl⟩ := List.mem_map.1 h3
    refine ⟨k, h6, h4, fun k' h7 h8 => h5 _ (List.mem_map_of_mem h7) fun e => h8 (String.toList_injective e)⟩

/-- A secret from a file; null counts as not given. -/
example : (struct Structs.secret).de
    (Derive.mapping [("environment".toList, .unit), ("file".toList, .str "a".toList)]) =
    .ok (.file "a".toList, .list [], none, [], [], ()) := rfl

theorem common_good : GoodFields Structs.common := (parts_known sampleEnv ⟨Structs.common, ["target", "read_only", "consistency"], ["target"], [], .extensions, false⟩ (by simp [parts])).good

/-- C70: in a struct that does not ignore unknown keys, every other key is an extension (`x-`) or, in a mount, one of the
keys that all mounts have. -/
theorem C70_other_keys (E : Env) (s : StructInfo) (hs : s ∈ structs E) (hr : s.rest ≠ .ignored) (es : List (Str × Content))
    (r : Record s.fields) (h : (struct s.fields).de (Derive.mapping es) = .ok r) :
    ∀ e ∈ es, e.1 ∈ s.keyTexts ∨ RestKey s.rest e.1 := by
  have kn := all_known E s hs
  intro e he
  by_cases hk : e.1 ∈ s.keyTexts
  · exact .inl hk
  refine .inr ?_
  have hm : e ∈ es.filter fun e => e.1 ∉ s.keyTexts := List.mem_filter.2 ⟨he, by simpa using hk⟩
  have hst := standsFor_of hs h
  have hrest := kn.rest
  cases hc : s.rest with
  | ignored => exact absurd hc hr
  | extensions =>
    rw [hc] at hrest
    obtain ⟨x, hx⟩ := standsFor_flat hst (List.mem_of_getLast? hrest)
    exact extensions_ok hx e hm
  | common =>
    rw [hc] at hrest
    obtain ⟨x, hx⟩ := standsFor_flat hst (List.mem_of_getLast? hrest)
    by_cases hk : e.1 ∈ commonTexts
    · exact .inl hk
    · refine .inr ?_
      rw [show (Flat.read _ _) = decode Structs.common _ from rfl, decode_ok common_good] at hx
      obtain ⟨y, hy⟩ := standsFor_flat hx (List.mem_of_getLast? (show Structs.common.getLast? = some extensions from rfl))
      exact extensions_ok hy e (List.mem_filter.2 ⟨hm, decide_eq_true (show e.1 ∉ ownKeys Structs.common from hk)⟩)

/-- The keys of the network. -/
example : ∀ e ∈ sampleNetwork, e.1 ∈ (networkInfo sampleEnv).keyTexts ∨ ExtensionKey e.1 :=
  C70_other_keys sampleEnv _ (networkInfo_mem _) (by decide) sampleNetwork sampleNetworkRecord rfl

theorem common_apart (E : Env) : ∀ s ∈ structs E, s.rest = .common → ∀ k ∈ commonTexts, k ∉ s.keyTexts := by
  unfold structs file parts
  (repeat refine List.forall_mem_cons.2 ⟨by first | (intro h; cases h; done) | (intro _; decide +kernel), ?_⟩)
  simp

/-- C70: a mount needs a target; the keys that all mounts have are given at most once. -/
theorem C70_mount_keys (E : Env) (s : StructInfo) (hs : s ∈ structs E) (hr : s.rest = .common) (es : List (Str × Content))
    (r : Record s.fields) (h : (struct s.fields).de (Derive.mapping es) = .ok r) :
    (∃ v, given es "target".toList = [v]) ∧ ∀ k ∈ commonTexts, (given es k).length ≤ 1 := by
  have kn := all_known E s hs
  have hrest := kn.rest
  rw [hr] at hrest
  obtain ⟨x, hx⟩ := standsFor_flat (standsFor_of hs h) (List.mem_of_getLast? hrest)
  rw [show (Flat.read _ _) = decode Structs.common _ from rfl, decode_ok common_good] at hx
  have hg : ∀ k ∈ commonTexts, given (es.filter fun e => e.1 ∉ s.keyTexts) k = given es k := fun k hk =>
    given_filter (p := fun k => k ∉ s.keyTexts) (common_apart E s hs hr k hk)
  refine ⟨?_, fun k hk => ?_⟩
  · rw [← hg _ (by decide)]
    exact List.length_eq_one_iff.1 ((standsFor_given hx (List.mem_cons_self (a := _) (l := _))).2.1 rfl)
  · rw [← hg k hk]
    exact standsFor_once (one := []) (ItemsKeyed.all (is := Structs.common)) hx k hk

/-- A tmpfs mount without its type. -/
example : (struct mountTmpfs).de (Derive.mapping [("target".toList, .str "/tmp".toList), ("x-a".toList, .u64 1)]) =
    .ok (none, ("/tmp".toList, false, none, [("x-a".toList, .u64 1)], ()), ()) := rfl

/-- C70: a key that is not required may be left out. -/
theorem C70_optional (E : Env) (s : StructInfo) (hs : s ∈ structs E) (es : List (Str × Content)) (r : Record s.fields)
    (h : (struct s.fields).de (Derive.mapping es) = .ok r) (k : String) (hk : k ∈ s.keys) (hr : k ∉ s.required)
    (ho : k ∉ s.oneOf) :
    ∃ r', (struct s.fields).de (Derive.mapping (es.filter fun e => e.1 ≠ k.toList)) = .ok r' := by
  have kn := all_known E s hs
  obtain ⟨r', hr'⟩ := standsFor_omit kn.keyed (fun k hk => kn.keys ▸ hk) (standsFor_of hs h) (k := k.toList)
    (fun f hf e hd => by
      have : k.toList ∈ requiredKeys s.fields := mem_requiredKeys.2 ⟨f, hf, e, hd⟩
      rw [kn.required] at this
      obtain ⟨k', h1, h2⟩ := List.mem_map.1 this
      exact hr (String.toList_injective h2 ▸ h1))
    (fun hm => by
      obtain ⟨k', h1, h2⟩ := List.mem_map.1 hm
      exact ho (String.toList_injective h2 ▸ h1))
    (List.mem_map_of_mem hk)
  exact ⟨r', de_of_standsFor hs hr'⟩

/-- The network without its driver. -/
example : ∃ r', (struct (Structs.network sampleEnv)).de
    (Derive.mapping (sampleNetwork.filter fun e => e.1 ≠ "driver".toList)) = .ok r' :=
  C70_optional sampleEnv _ (networkInfo_mem _) sampleNetwork sampleNetworkRecord rfl "driver" (by decide) (by decide) (by decide)

/-- C70: a struct that ignores unknown keys is read in the same way without them. -/
theorem C70_ignored (E : Env) (s : StructInfo) (hs : s ∈ structs E) (hr : s.rest = .ignored) (es : List (Str × Content))
    (r : Record s.fields) :
    (struct s.fields).de (Derive.mapping es) = .ok r ↔
      (struct s.fields).de (Derive.mapping (es.filter fun e => e.1 ∈ s.keyTexts)) = .ok r := by
  have kn := all_known E s hs
  have hrest := kn.rest
  rw [hr] at hrest
  rw [struct_de_mapping, struct_de_mapping, decode_ok kn.good, decode_ok kn.good, kn.keys]
  exact (standsFor_ignore hrest (fun k hk => kn.keys ▸ hk) es r).symm

/-- A misspelt key of a dependency goes unnoticed. -/
example : (struct dependency).de (Derive.mapping [("condition".toList, .str "service_healthy".toList), ("restrat".toList, .bool true)]) =
    .ok (.serviceHealthy, false, true, ()) := rfl

/-- C70: a struct that does not ignore unknown keys can be given a further extension. -/
theorem C70_extension (E : Env) (s : StructInfo) (hs : s ∈ structs E) (es : List (Str × Content))
    (r : Record s.fields) (h : (struct s.fields).de (Derive.mapping es) = .ok r) (k : Str) (v : Content)
    (hk : ExtensionKey k) (hn : k ∉ es.map (·.1)) :
    ∃ r', (struct s.fields).de (Derive.mapping (es ++ [(k, v)])) = .ok r' := by
  have kn := all_known E s hs
  obtain ⟨r', hr'⟩ := standsFor_extend (v := v) kn.keyed (fun k hk => kn.keys ▸ hk) (standsFor_of hs h) hk hn
    (fun hm => kn.noExt k hm (by obtain ⟨⟨t, rfl⟩, -⟩ := hk; exact ⟨t, rfl⟩))
  exact ⟨r', de_of_standsFor hs hr'⟩

/-- The network with another extension. -/
example : ∃ r', (struct (Structs.network sampleEnv)).de (Derive.mapping (sampleNetwork ++ [("x-c".toList, .bool true)])) = .ok r' :=
  C70_extension sampleEnv _ (networkInfo_mem _) sampleNetwork sampleNetworkRecord rfl "x-c".toList (.bool true)
    ⟨⟨['c'], rfl⟩, by decide⟩ (by decide)

theorem tag_filter {es : List (Str × Content)} {v : Content} :
    (∃ k, es.filter (fun e => e.1 = tagKey) = [(k, v)]) ↔ given es tagKey = [v] := by
  unfold given
  constructor
  · rintro ⟨k, h⟩; rw [h]; rfl
  · intro h
    obtain ⟨e, h1, h2⟩ := List.map_eq_singleton_iff.1 h
    exact ⟨e.1, by rw [h1, ← h2]⟩

/-- C70: a mount is a mapping with one key `type`, a string that names the type, and the other entries stand for the struct
of that type. -/
theorem C70_mount (c : Content) (m : MountOf) :
    mount.de c = .ok m ↔ ∃ es tag, c = Derive.mapping es ∧ given es "type".toList = [.str tag] ∧
      MountText tag (es.filter fun e => e.1 ≠ "type".toList) m := by
  have g := fun s hs => (parts_known sampleEnv s hs).good
  have g1 : GoodFields mountVolume := g ⟨mountVolume, ["source", "volume"], [], [], .common, false⟩ (by simp [parts])
  have g2 : GoodFields mountBind := g ⟨mountBind, ["source", "bind"], ["source"], [], .common, false⟩ (by simp [parts])
  have g3 : GoodFields mountTmpfs := g ⟨mountTmpfs, ["tmpfs"], [], [], .common, false⟩ (by simp [parts])
  have g4 : GoodFields mountNamedPipe := g ⟨mountNamedPipe, ["source"], ["source"], [], .common, false⟩ (by simp [parts])
  have g5 : GoodFields mountCluster := g ⟨mountCluster, ["source"], ["source"], [], .common, false⟩ (by simp [parts])
  have main : ∀ es, mountRead es = .ok m ↔ ∃ tag, given es "type".toList = [.str tag] ∧
      MountText tag (es.filter fun e => e.1 ≠ "type".toList) m := by
    intro es
    constructor
    · intro h
      unfold mountRead at h
      split at h
      · rename_i k tag ht
        refine ⟨tag, tag_filter.1 ⟨k, ht⟩, ?_⟩
        simp only at h
        repeat' split at h
        · subst_vars; obtain ⟨r, h1, rfl⟩ := Outcome.map_eq_ok.1 h; exact .volume ((decode_ok g1 _ _).1 h1)
        · subst_vars; obtain ⟨r, h1, rfl⟩ := Outcome.map_eq_ok.1 h; exact .bind ((decode_ok g2 _ _).1 h1)
        · subst_vars; obtain ⟨r, h1, rfl⟩ := Outcome.map_eq_ok.1 h; exact .tmpfs ((decode_ok g3 _ _).1 h1)
        · subst_vars; obtain ⟨r, h1, rfl⟩ := Outcome.map_eq_ok.1 h; exact .namedPipe ((decode_ok g4 _ _).1 h1)
        · subst_vars; obtain ⟨r, h1, rfl⟩ := Outcome.map_eq_ok.1 h; exact .cluster ((decode_ok g5 _ _).1 h1)
        · cases h
      · cases h
    · rintro ⟨tag, h1, h2⟩
      obtain ⟨k, h3⟩ := tag_filter.2 h1
      unfold mountRead
      rw [h3]
      cases h2 with
      | volume h => simp only; rw [if_pos trivial]; exact Outcome.map_eq_ok.2 ⟨_, (decode_ok g1 _ _).2 h, rfl⟩
      | bind h =>
        simp only; rw [if_neg (by decide), if_pos trivial]; exact Outcome.map_eq_ok.2 ⟨_, (decode_ok g2 _ _).2 h, rfl⟩
      | tmpfs h =>
        simp only; rw [if_neg (by decide), if_neg (by decide), if_pos trivial]
        exact Outcome.map_eq_ok.2 ⟨_, (decode_ok g3 _ _).2 h, rfl⟩
      | namedPipe h =>
        simp only; rw [if_neg (by decide), if_neg (by decide), if_neg (by decide), if_pos trivial]
        exact Outcome.map_eq_ok.2 ⟨_, (decode_ok g4 _ _).2 h, rfl⟩
      | cluster h =>
        simp only; rw [if_neg (by decide), if_neg (by decide), if_neg (by decide), if_neg (by decide), if_pos trivial]
        exact Outcome.map_eq_ok.2 ⟨_, (decode_ok g5 _ _).2 h, rfl⟩
  constructor
  · intro h
    obtain ⟨es, h1, h2⟩ := Outcome.bind_eq_ok.1 h
    obtain ⟨tag, h3⟩ := (main es).1 h2
    exact ⟨es, tag, entriesOf_iff.1 (Outcome.ofOption_eq_ok.1 h1), h3⟩
  · rintro ⟨es, tag, rfl, h⟩
    exact Outcome.bind_eq_ok.2 ⟨es, by rw [Proofs.entriesOf_mapping]; rfl, (main es).2 ⟨tag, h⟩⟩

/-- The type may come last. -/
example : mount.de (Derive.mapping [("target".toList, .str "/tmp".toList), ("type".toList, .str "tmpfs".toList)]) =
    .ok (.tmpfs (none, ("/tmp".toList, false, none, [], ()), ())) := rfl

/-! ### C71: reading what was written -/

/-- C71: reading gives back the struct that was written, if all its values are valid. -/
theorem C71_round_trip (E : Env) [EnvOk E] (s : StructInfo) (hs : s ∈ parts E) (r : Record s.fields)
    (hr : recordValid s.fields r) : (struct s.fields).de ((struct s.fields).ser r) = .ok r :=
  (parts_lawful E s hs).read r hr

/-- Bind options that are written and read. -/
example : (struct bindOptions).de ((struct bindOptions).ser (some .shared, true, none, [("x-a".toList, .u64 1)], ())) =
    .ok (some .shared, true, none, [("x-a".toList, .u64 1)], ()) :=
  C71_round_trip sampleEnv ⟨bindOptions, ["propagation", "create_host_path", "selinux"], [], [], .extensions, false⟩
    (by simp [parts]) _
    ⟨fun _ _ => trivial, trivial, fun _ h => (by cases h),
      ⟨by decide, by simpa using ⟨⟨['a'], rfl⟩, by decide⟩⟩, trivial⟩

/-- C71: a Compose file comes back up to the order of the extensions of top-level networks, volumes, configs and
secrets. -/
theorem C71_compose (E : Env) [EnvOk E] (r : Record (Structs.compose E)) (hr : recordValid (Structs.compose E) r) :
    ∃ r', (struct (Structs.compose E)).de ((struct (Structs.compose E)).ser r) = .ok r' ∧ SameCompose E r r' :=
  (compose_survives r hr).imp fun _ h => ⟨h.1, sameFile_differ h.2⟩

/-- A Compose file with a network that has two extensions, which come back in another order. -/
def sampleCompose (es : IndexMap Str Content) : Record (Structs.compose sampleEnv) :=
  (none, some "demo".toList, [], [],
    [("n".toList, some (.compose (some .host, [], false, false, none, true, .list [], none, es, ())))], [], [], [], [], ())

theorem sampleCompose_valid :
    recordValid (Structs.compose sampleEnv) (sampleCompose [("x-a".toList, .u64 1), ("x-b".toList, .u64 2)]) := by
  have hx : ∀ k, k = "x-a".toList ∨ k = "x-b".toList → ExtensionKey k := by
    rintro k (rfl | rfl)
    · exact ⟨⟨['a'], rfl⟩, by decide⟩
    · exact ⟨⟨['b'], rfl⟩, by decide⟩
  have hn : recordValid (Structs.network sampleEnv) (some .host, [], false, false, none, true, .list [], none,
      [("x-a".toList, .u64 1), ("x-b".toList, .u64 2)], ()) :=
    ⟨fun _ h => (by cases h; exact ⟨by simp, by simp⟩), ⟨List.nodup_nil, by simp⟩, trivial, trivial, (fun _ h => by cases h), trivial,
      ⟨.nil, by simp⟩, (fun _ _ => trivial), ⟨by decide, fun e he => hx _ (by
        rcases List.mem_cons.1 he with rfl | he
        · exact .inl rfl
        · rcases List.mem_cons.1 he with rfl | he
          · exact .inr rfl
          · cases he)⟩, trivial⟩
  refine ⟨(fun _ _ => trivial), (fun n h => ?_), (fun _ h => by cases h), ⟨List.nodup_nil, fun _ h => by cases h⟩,
    ⟨by decide, fun e he => ?_⟩, ⟨List.nodup_nil, fun _ h => by cases h⟩, ⟨List.nodup_nil, fun _ h => by cases h⟩,
    ⟨List.nodup_nil, fun _ h => by cases h⟩, ⟨List.nodup_nil, fun _ h => by cases h⟩, trivial⟩
  · cases h
    exact ((C02_project_name_accepts _ _).1 rfl).1
  · obtain rfl := List.mem_singleton.1 he
    refine ⟨((C01_identifier_accepts _ _).1 rfl).1, fun x hx => ?_⟩
    cases hx
    exact hn

example : (struct (Structs.compose sampleEnv)).de
      ((struct (Structs.compose sampleEnv)).ser (sampleCompose [("x-a".toList, .u64 1), ("x-b".toList, .u64 2)])) =
    .ok (sampleCompose [("x-b".toList, .u64 2), ("x-a".toList, .u64 1)]) := rfl

/-- C71: mounts. -/
theorem C71_mount (m : MountOf) (hm : mount.valid m) : mount.de (mount.ser m) = .ok m := Lawful.read m hm

/-- A tmpfs mount that is written and read. -/
example : mount.de (mount.ser (.tmpfs (none, ("/tmp".toList, true, none, [], ()), ()))) =
    .ok (.tmpfs (none, ("/tmp".toList, true, none, [], ()), ())) :=
  C71_mount _ ⟨fun _ h => (by cases h), ⟨⟨_, rfl⟩, trivial, (fun _ h => by cases h), ⟨by decide, by simp⟩, trivial⟩, trivial⟩

/-! ### C72: the order of keys -/

/-- C72: the order of the keys in a mapping is irrelevant. -/
theorem C72_order (E : Env) (s : StructInfo) (hs : s ∈ structs E) (es es' : List (Str × Content)) (hp : es.Perm es')
    (hn : (es.map (·.1)).Nodup) (r : Record s.fields) (h : (struct s.fields).de (Derive.mapping es) = .ok r) :
    ∃ r', (struct s.fields).de (Derive.mapping es') = .ok r' ∧ SameRecord s.fields r r' := by
  have kn := all_known E s hs
  rw [struct_de_mapping] at h ⊢
  exact (decode_perm kn.good kn.stable hp hn h).imp fun _ h => ⟨h.1, same_differ kn.laws h.2⟩

/-- The network in reverse. -/
example : ∃ r', (struct (Structs.network sampleEnv)).de (Derive.mapping sampleNetwork.reverse) = .ok r' ∧
    SameRecord (Structs.network sampleEnv) sampleNetworkRecord r' :=
  C72_order sampleEnv _ (networkInfo_mem _) sampleNetwork _ (List.reverse_perm _).symm (by decide) _ rfl

/-- C72: the order of the keys in a mount is irrelevant. -/
theorem C72_mount_order (es es' : List (Str × Content)) (hp : es.Perm es') (hn : (es.map (·.1)).Nodup) (m : MountOf)
    (h : mount.de (Derive.mapping es) = .ok m) : ∃ m', mount.de (Derive.mapping es') = .ok m' ∧ SameMount m m' := by
  obtain ⟨es₁, tag, h1, h2, h3⟩ := (C70_mount _ _).1 h
  have e : es₁ = es := by
    have := congrArg entriesOf h1
    rw [Proofs.entriesOf_mapping, Proofs.entriesOf_mapping] at this
    exact (Option.some.inj this).symm
  subst e
  have h4 : given es' "type".toList = [.str tag] := by rw [← given_eq_of_perm hp hn]; exact h2
  have hp' := hp.filter fun e => e.1 ≠ "type".toList
  have hn' : ((es₁.filter fun e => e.1 ≠ "type".toList).map (·.1)).Nodup := hn.sublist (List.filter_sublist.map _)
  have k := parts_known sampleEnv
  cases h3 with
  | volume hr =>
    have k1 := k ⟨mountVolume, ["source", "volume"], [], [], .common, false⟩ (by simp [parts])
    obtain ⟨r', hr', hs⟩ := standsFor_perm k1.stable hp' hn' hr
    exact ⟨_, (C70_mount _ _).2 ⟨es', _, rfl, h4, .volume hr'⟩, .volume (same_differ k1.laws hs)⟩
  | bind hr =>
    have k1 := k ⟨mountBind, ["source", "bind"], ["source"], [], .common, false⟩ (by simp [parts])
    obtain ⟨r', hr', hs⟩ := standsFor_perm k1.stable hp' hn' hr
    exact ⟨_, (C70_mount _ _).2 ⟨es', _, rfl, h4, .bind hr'⟩, .bind (same_differ k1.laws hs)⟩
  | tmpfs hr =>
    have k1 := k ⟨mountTmpfs, ["tmpfs"], [], [], .common, false⟩ (by simp [parts])
    obtain ⟨r', hr', hs⟩ := standsFor_perm k1.stable hp' hn' hr
    exact ⟨_, (C70_mount _ _).2 ⟨es', _, rfl, h4, .tmpfs hr'⟩, .tmpfs (same_differ k1.laws hs)⟩
  | namedPipe hr =>
    have k1 := k ⟨mountNamedPipe, ["source"], ["source"], [], .common, false⟩ (by simp [parts])
    obtain ⟨r', hr', hs⟩ := standsFor_perm k1.stable hp' hn' hr
    exact ⟨_, (C70_mount _ _).2 ⟨es', _, rfl, h4, .namedPipe hr'⟩, .namedPipe (same_differ k1.laws hs)⟩
  | cluster hr =>
    have k1 := k ⟨mountCluster, ["source"], ["source"], [], .common, false⟩ (by simp [parts])
    obtain ⟨r', hr', hs⟩ := standsFor_perm k1.stable hp' hn' hr
    exact ⟨_, (C70_mount _ _).2 ⟨es', _, rfl, h4, .cluster hr'⟩, .cluster (same_differ k1.laws hs)⟩

/-- The type of a mount may come last. -/
example : ∃ m', mount.de (Derive.mapping [("target".toList, .str "/tmp".toList), ("type".toList, .str "tmpfs".toList)]) = .ok m' ∧
    SameMount (.tmpfs (none, ("/tmp".toList, false, none, [], ()), ())) m' :=
  C72_mount_order [("type".toList, .str "tmpfs".toList), ("target".toList, .str "/tmp".toList)] _ (.swap _ _ _) (by decide) _ rfl

/-! ### C73: what is written -/

/-- C73: the keys of the fields are written in the order of the fields, then the other allowed keys; no key is written
twice; a field is left out exactly if it has its default. -/
theorem C73_written (E : Env) (s : StructInfo) (hs : s ∈ structs E) (r : Record s.fields) (hr : recordValid s.fields r) :
    ∃ front back, (struct s.fields).ser r = Derive.mapping (front ++ back) ∧ (front.map (·.1)).Sublist s.keyTexts ∧
      (∀ e ∈ back, RestKey s.rest e.1) ∧ ((front ++ back).map (·.1)).Nodup ∧ OmitsDefaults (front ++ back) s.fields r := by
  have kn := all_known E s hs
  obtain ⟨front, back, h1, h2, h3, h4⟩ := written_split kn.written kn.atEnd hr
  rw [kn.keys] at h2
  refine ⟨front, back, by rw [← h1]; rfl, h2, fun e he => ?_, ?_, ?_⟩
  · rcases written_allowed kn.written (rest_writes kn.atEnd kn.rest) hr e (by rw [h1]; simp [he]) with h | h
    · exact absurd (kn.keys ▸ h) (h4 e he)
    · exact h
  · exact written_nodup (kn.keys ▸ kn.good.distinct) rfl h2 h3 h4
  · rw [← h1]
    exact omits_write kn.good.distinct (fun k hk => kn.keys ▸ hk) kn.good.last kn.written hr [] (by simp)

/-- What is written for the network. -/
example : (struct (Structs.network sampleEnv)).ser sampleNetworkRecord =
    Derive.mapping [("driver".toList, .str "bridge".toList), ("internal".toList, .bool true), ("x-a".toList, .u64 1)] := rfl

/-- The network meets the hypothesis. -/
example : recordValid (Structs.network sampleEnv) sampleNetworkRecord :=
  ⟨fun d h => (by cases h; exact ⟨by decide, by decide⟩), ⟨by decide, (fun _ h => by cases h)⟩, trivial, trivial,
    (fun _ h => by cases h), trivial, ⟨.nil, (fun _ h => by cases h)⟩, (fun _ h => by cases h),
    ⟨by decide, by simpa using ⟨⟨['a'], rfl⟩, by decide⟩⟩, trivial⟩

/-! ### C74: panics -/

/-- C74, the part that holds: reading a struct panics only if a string somewhere in the file contains a number of 2^64 or
more, or a pair of port ranges one of which is reversed or has all ports.  Missing: these files, on which the code can
panic; `C74_panics_only_there` and `C74_panics_there` say in which places of the file and for which texts. -/
theorem C74_never_panics_partial (E : Env) (s : StructInfo) (hs : s ∈ structs E) (c : Content)
    (h : ∀ t, Occurs t c → ¬ HasHugeNumber t ∧ ¬ HasUnsizableRanges t) : (struct s.fields).de c ≠ .panic := by
  intro hp
  have kn := all_known E s hs
  have : ItemsPanicOn (fun t => HasHugeNumber t ∨ HasUnsizableRanges t) s.fields := kn.panics _ fun _ =>
    ⟨⟨fun t ht => by
      obtain ⟨ts, ds, u, tail, -, h1, h2, h3, -⟩ := (C09_duration_panics_iff t).1 ht
      exact .inl ⟨renderTerms ts, ds, u ++ tail, by rw [h1]; simp, h2, h3⟩⟩,
    ⟨fun t ht => .inr (C14_short_port_panics _ t ht)⟩⟩
  obtain ⟨t, h1, h2⟩ := (inferInstance : PanicsOn (fun t => HasHugeNumber t ∨ HasUnsizableRanges t) (struct s.fields)).panic c hp
  exact h2.elim (h t h1).1 (h t h1).2

theorem short_no_huge {t : Str} (h : t.length ≤ 19) : ¬ HasHugeNumber t := by
  rintro ⟨a, ds, b, rfl, ⟨-, h1⟩, h2⟩
  have h3 : decimal ds < (0 + 1) * 10 ^ ds.length := foldl_lt h1 0
  have h4 : 10 ^ ds.length ≤ 10 ^ 19 := Nat.pow_le_pow_right (by decide) (by simp at h; omega)
  have h5 : (10 : Nat) ^ 19 < 2 ^ 64 := by decide
  omega

theorem no_colon_no_ranges {t : Str} (h : ':' ∉ t) : ¬ HasUnsizableRanges t := by
  rintro ⟨a, ranges, b, rfl, x, y, host, container, rfl, -⟩
  exact h (by simp)

/-- A service with a duration that does not panic. -/
example : (struct (Structs.service sampleEnv)).de
    (Derive.mapping [("stop_grace_period".toList, .str "1m30s".toList), ("x-ports".toList, .seq [.str "80".toList])]) ≠ .panic := by
  refine C74_never_panics_partial sampleEnv ((parts sampleEnv).getLast (by simp [parts]))
    (List.mem_cons_of_mem _ (List.getLast_mem _)) _ fun t ht => ?_
  have : t = "1m30s".toList ∨ t = "80".toList := by
    cases ht with
    | value hm ht =>
      simp only [Derive.mapping, List.map_cons, List.map_nil, List.mem_cons, Prod.mk.injEq, List.not_mem_nil, or_false] at hm
      rcases hm with ⟨-, rfl⟩ | ⟨-, rfl⟩
      · cases ht; exact .inl rfl
      · cases ht with
        | item hm ht => cases List.mem_singleton.1 hm; cases ht; exact .inr rfl
  rcases this with rfl | rfl
  · exact ⟨short_no_huge (by decide), no_colon_no_ranges (by decide)⟩
  · exact ⟨short_no_huge (by decide), no_colon_no_ranges (by decide)⟩

/-- C74: structs without durations and ports are read without panics. -/
theorem C74_untimed_never_panics (E : Env) (s : StructInfo) (hs : s ∈ structs E) (ht : s.timed = false) (c : Content) :
    (struct s.fields).de c ≠ .panic := by
  intro hp
  have kn := all_known E s hs
  have : ItemsPanicOn (fun _ => False) s.fields := kn.panics _ fun h => by rw [ht] at h; cases h
  obtain ⟨t, h1, h2⟩ := (inferInstance : PanicsOn (fun _ => False) (struct s.fields)).panic c hp
  exact h2

example : (struct (Structs.network sampleEnv)).de (Derive.mapping [("name".toList, .str "18446744073709551616s".toList)]) ≠ .panic :=
  C74_untimed_never_panics sampleEnv _ (networkInfo_mem _) rfl _

/-- A duration that makes the code panic. -/
def hugeDuration : Content := .str "18446744073709551616s".toList

/-- C74 is false for the code: every struct with durations somewhere is read with a panic from some mapping. -/
theorem C74_never_panics_false (E : Env) (s : StructInfo) (hs : s ∈ structs E) (ht : s.timed = true) :
    ∃ c, (struct s.fields).de c = .panic := by
  have restart : (struct restartPolicy).de (Derive.mapping [("delay".toList, hugeDuration)]) = .panic := rfl
  have update : (struct updateOrRollbackConfig).de (Derive.mapping [("delay".toList, hugeDuration)]) = .panic := rfl
  have deploy : (struct (Structs.deploy E)).de
      (Derive.mapping [("restart_policy".toList, Derive.mapping [("delay".toList, hugeDuration)])]) = .panic := rfl
  have service : (struct (Structs.service E)).de (Derive.mapping [("stop_grace_period".toList, hugeDuration)]) = .panic := rfl
  have compose : (struct (Structs.compose E)).de
      (Derive.mapping [("services".toList, Derive.mapping [("web".toList, Derive.mapping [("stop_grace_period".toList, hugeDuration)])])]) =
      .panic := rfl
  revert s
  unfold structs file parts
  (repeat refine List.forall_mem_cons.2 ⟨by
    first
      | (intro h; cases h; done)
      | exact fun _ => ⟨_, restart⟩
      | exact fun _ => ⟨_, update⟩
      | exact fun _ => ⟨_, deploy⟩
      | exact fun _ => ⟨_, service⟩
      | exact fun _ => ⟨_, compose⟩, ?_⟩)
  simp

example : ∃ c, (struct Structs.restartPolicy).de c = .panic :=
  C74_never_panics_false sampleEnv
    ⟨Structs.restartPolicy, ["condition", "delay", "max_attempts", "window"], [], [], .extensions, true⟩ (by simp [structs, parts]) rfl

end Props
