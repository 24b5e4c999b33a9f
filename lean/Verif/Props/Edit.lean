import Verif.Proofs.EditFiles
import Verif.Props.Longhand

/- C99: editing one setting. -/

namespace Props
open Rust Compose Compose.Derive Compose.Codecs Compose.Structs Spec Proofs

theorem local_part {is : List Item} {keys required oneOf : List String} {rest : Rest} {timed : Bool} [h : Local (struct is)] :
    "healthcheck" ∉ (StructInfo.mk is keys required oneOf rest timed).keys →
      Local (struct (StructInfo.mk is keys required oneOf rest timed).fields) := fun _ => h

theorem local_parts (E : Env) : ∀ s ∈ parts E, "healthcheck" ∉ s.keys → Local (struct s.fields) := by
  unfold parts
  repeat refine List.forall_mem_cons.2 ⟨local_part, ?_⟩
  refine List.forall_mem_cons.2 ⟨fun h => absurd ?_ h, fun _ h => by cases h⟩
  simp

/-- C99: where the setting at a path of the document of a struct other than a service, or of one of its parts, is changed,
added, or removed, what is written of it differs at most in the setting at that path. -/
theorem C99_struct (E : Env) (s : StructInfo) (hs : s ∈ parts E) (hk : "healthcheck" ∉ s.keys) (path : List Str) (v w : Content)
    (h : Edited path v w) (r r' : Record s.fields) (hr : (struct s.fields).de v = .ok r) (hr' : (struct s.fields).de w = .ok r') :
    DifferAt path ((struct s.fields).ser r) ((struct s.fields).ser r') :=
  (local_parts E s hs hk).all path v w r r' trivial h hr hr'

/-- C99: the same for mounts, where the setting may be the type of the mount. -/
theorem C99_mount (path : List Str) (v w : Content) (h : Edited path v w) (m m' : MountOf) (hm : mount.de v = .ok m)
    (hm' : mount.de w = .ok m') : DifferAt path (mount.ser m) (mount.ser m') :=
  mount_local path v w m m' trivial h hm hm'

/-- C99: the same for the networks, volumes, configs, and secrets at the top of a file, whether external or not. -/
theorem C99_resource (E : Env) [EnvOk E] (is : List Item) (hi : is ∈ [network E, volume, config, secret]) (path : List Str)
    (v w : Content) (h : Edited path v w) (r r' : Resource (Record is)) (hr : (resource E is).de v = .ok r)
    (hr' : (resource E is).de w = .ok r') : DifferAt path ((resource E is).ser r) ((resource E is).ser r') := by
  simp only [List.mem_cons, List.not_mem_nil, or_false] at hi
  rcases hi with rfl | rfl | rfl | rfl <;> exact Local.all path v w r r' trivial h hr hr'

/-- C99: the same for health checks and settings other than the test. -/
theorem C99_healthcheck (path : List Str) (v w : Content) (hp : ¬ ["test".toList] <+: path) (h : Edited path v w) (x y : Healthcheck)
    (hx : Codecs.healthcheck.de v = .ok x) (hy : Codecs.healthcheck.de w = .ok y) :
    DifferAt path (Codecs.healthcheck.ser x) (Codecs.healthcheck.ser y) :=
  healthcheck_local path v w x y (fun ht => hp (by
    cases path with
    | nil => cases ht
    | cons k p => cases Option.some.inj ht; exact ⟨p, rfl⟩)) h hx hy

/-- C99: the same for services and settings other than the test of the health check. -/
theorem C99_service (E : Env) (path : List Str) (v w : Content) (hp : ¬ ["healthcheck".toList, "test".toList] <+: path)
    (h : Edited path v w) (r r' : Record (service E)) (hr : (struct (service E)).de v = .ok r)
    (hr' : (struct (service E)).de w = .ok r') : DifferAt path ((struct (service E)).ser r) ((struct (service E)).ser r') :=
  service_local path v w r r' hp h hr hr'

/-- C99: the same for files and settings other than the tests of health checks. -/
theorem C99_file (E : Env) [EnvOk E] (path : List Str) (v w : Content)
    (hp : ∀ name, ¬ ["services".toList, name, "healthcheck".toList, "test".toList] <+: path) (h : Edited path v w)
    (r r' : Record (compose E)) (hr : (struct (compose E)).de v = .ok r) (hr' : (struct (compose E)).de w = .ok r') :
    DifferAt path ((struct (compose E)).ser r) ((struct (compose E)).ser r') :=
  compose_local path v w r r' hp h hr hr'

theorem differAt_others {k : Str} {p : List Str} {es fs : List (Content × Content)} (h : DifferAt (k :: p) (.map es) (.map fs))
    {e : Content × Content} (he : e.1 ≠ .str k) : e ∈ es ↔ e ∈ fs := by
  have hm : ∀ {v : Content} {l : List (Content × Content)}, e ∈ (.str k, v) :: l ↔ e ∈ l := fun {v l} =>
    ⟨fun h => (List.mem_cons.1 h).resolve_left fun hv => he (congrArg Prod.fst hv), List.mem_cons_of_mem _⟩
  cases h with
  | same => rfl
  | order h => exact h.mem_iff
  | value h1 h2 _ => rw [h1.mem_iff, h2.mem_iff, hm, hm]
  | missingLeft h1 _ => rw [h1.mem_iff, hm]
  | missingRight h1 _ => rw [h1.mem_iff, hm]

/-- C99: so the entries that a file is written with are the same but for the one of the key under which it has been edited. -/
theorem C99_entries (E : Env) [EnvOk E] (key : Str) (path : List Str) (v w : Content)
    (hp : ∀ name, ¬ ["services".toList, name, "healthcheck".toList, "test".toList] <+: key :: path) (h : Edited (key :: path) v w)
    (r r' : Record (compose E)) (hr : (struct (compose E)).de v = .ok r) (hr' : (struct (compose E)).de w = .ok r') :
    ∃ es fs, (struct (compose E)).ser r = .map es ∧ (struct (compose E)).ser r' = .map fs ∧
      ∀ e : Content × Content, e.1 ≠ .str key → (e ∈ es ↔ e ∈ fs) :=
  ⟨_, _, rfl, rfl, fun _ he => differAt_others (C99_file E _ v w hp h r r' hr hr') he⟩

/-! ### A setting that decides about another -/

/-- C99: the test of a health check can decide about another setting: where it is set to `NONE`, `disable` is written. -/
theorem C99_test : ∃ v w x y, Edited ["test".toList] v w ∧ Codecs.healthcheck.de v = .ok x ∧ Codecs.healthcheck.de w = .ok y ∧
    ¬ DifferAt ["test".toList] (Codecs.healthcheck.ser x) (Codecs.healthcheck.ser y) := by
  refine ⟨Derive.mapping [("test".toList, .seq [.str "NONE".toList])], Derive.mapping [("test".toList, .str "true".toList)], _, _,
    .value (a := []) (b := []) (by simp) .here, rfl, rfl, fun h => ?_⟩
  have h : DifferAt ["test".toList] (.map [(.str "disable".toList, .bool true)]) (.map [(.str "test".toList, .str "true".toList)]) := h
  have := (differAt_others (e := (.str "disable".toList, .bool true)) h (by simp)).1 List.mem_cons_self
  simp at this

/-! ### Examples -/

/-- A file whose services and networks are given by their settings. -/
def editedFile (service network : List (Str × Content)) : Content := Derive.mapping
  [("services".toList, Derive.mapping [("a".toList, Derive.mapping service), ("b".toList, Derive.mapping [("image".toList, .str "i".toList)])]),
    ("networks".toList, Derive.mapping [("n".toList, Derive.mapping network)]), ("x-a".toList, .unit)]

/-- A service with a health check. -/
def editedService (interval : String) : List (Str × Content) :=
  [("image".toList, .str "i".toList), ("healthcheck".toList, Derive.mapping [("test".toList, .str "true".toList),
    ("interval".toList, .str interval.toList)])]

theorem edited_interval : Edited ["services".toList, "a".toList, "healthcheck".toList, "interval".toList]
    (editedFile (editedService "1s") []) (editedFile (editedService "2s") []) :=
  .value (a := []) (b := [_, _]) (by simp) (.value (a := []) (b := [_]) (by simp)
    (.value (a := [_]) (b := []) (by simp) (.value (a := [_]) (b := []) (by simp) .here)))

/-- The interval of a health check in a file. -/
example : ∃ r r', (struct (compose textEnv)).de (editedFile (editedService "1s") []) = .ok r ∧
    (struct (compose textEnv)).de (editedFile (editedService "2s") []) = .ok r' ∧
    DifferAt ["services".toList, "a".toList, "healthcheck".toList, "interval".toList] ((struct (compose textEnv)).ser r)
      ((struct (compose textEnv)).ser r') := by
  have h : ∃ r, (struct (compose textEnv)).de (editedFile (editedService "1s") []) = .ok r := ⟨_, rfl⟩
  have h' : ∃ r, (struct (compose textEnv)).de (editedFile (editedService "2s") []) = .ok r := ⟨_, rfl⟩
  obtain ⟨r, h⟩ := h
  obtain ⟨r', h'⟩ := h'
  exact ⟨r, r', h, h', C99_file textEnv _ _ _ (fun _ hp => by
    obtain ⟨_, hp⟩ := hp
    exact absurd (List.cons.inj (List.cons.inj (List.cons.inj (List.cons.inj hp).2).2).2).1 (by decide)) edited_interval r r' h h'⟩

example : ∃ es fs : List (Content × Content), ∀ e : Content × Content, e.1 ≠ .str "services".toList → (e ∈ es ↔ e ∈ fs) := by
  have h : ∃ r, (struct (compose textEnv)).de (editedFile (editedService "1s") []) = .ok r := ⟨_, rfl⟩
  have h' : ∃ r, (struct (compose textEnv)).de (editedFile (editedService "2s") []) = .ok r := ⟨_, rfl⟩
  obtain ⟨r, h⟩ := h
  obtain ⟨r', h'⟩ := h'
  obtain ⟨es, fs, -, -, h⟩ := C99_entries textEnv _ _ _ _ (fun _ hp => by
    obtain ⟨_, hp⟩ := hp
    exact absurd (List.cons.inj (List.cons.inj (List.cons.inj (List.cons.inj hp).2).2).2).1 (by decide)) edited_interval r r' h h'
  exact ⟨es, fs, h⟩

/-- A service that gets a setting. -/
example : ∃ r r', (struct (service textEnv)).de (Derive.mapping (editedService "1s")) = .ok r ∧
    (struct (service textEnv)).de (Derive.mapping (("tty".toList, .bool true) :: editedService "1s")) = .ok r' ∧
    DifferAt ["tty".toList] ((struct (service textEnv)).ser r) ((struct (service textEnv)).ser r') := by
  have h : ∃ r, (struct (service textEnv)).de (Derive.mapping (editedService "1s")) = .ok r := ⟨_, rfl⟩
  have h' : ∃ r, (struct (service textEnv)).de (Derive.mapping (("tty".toList, .bool true) :: editedService "1s")) = .ok r := ⟨_, rfl⟩
  obtain ⟨r, h⟩ := h
  obtain ⟨r', h'⟩ := h'
  exact ⟨r, r', h, h', C99_service textEnv _ _ _ (fun ⟨_, hp⟩ => absurd (List.cons.inj hp).1 (by decide))
    (.add (a := []) (b := [_, _]) (by simp)) r r' h h'⟩

/-- A network that becomes external. -/
example : ∃ r r', (resource textEnv (network textEnv)).de (Derive.mapping [("name".toList, .str "n".toList)]) = .ok r ∧
    (resource textEnv (network textEnv)).de (Derive.mapping [("external".toList, .bool true), ("name".toList, .str "n".toList)]) = .ok r' ∧
    DifferAt ["external".toList] ((resource textEnv (network textEnv)).ser r) ((resource textEnv (network textEnv)).ser r') :=
  ⟨_, _, rfl, rfl, C99_resource textEnv _ List.mem_cons_self _ _ _
    (.add (w := .bool true) (a := []) (b := [(.str "name".toList, .str "n".toList)]) (by simp)) _ _ rfl rfl⟩

/-- The driver of the addresses of a network. -/
example : ∃ r r', (struct (network textEnv)).de (Derive.mapping [("ipam".toList, Derive.mapping [("driver".toList, .str "d".toList),
      ("options".toList, Derive.mapping [("o".toList, .str "1".toList)])])]) = .ok r ∧
    (struct (network textEnv)).de (Derive.mapping [("ipam".toList, Derive.mapping [
      ("options".toList, Derive.mapping [("o".toList, .str "1".toList)])])]) = .ok r' ∧
    DifferAt ["ipam".toList, "driver".toList] ((struct (network textEnv)).ser r) ((struct (network textEnv)).ser r') :=
  ⟨_, _, rfl, rfl, C99_struct textEnv (networkInfo textEnv) (by simp [parts, networkInfo]) (by simp [networkInfo]) _ _ _
    (.value (a := []) (b := []) (by simp) (.remove (v := .str "d".toList) (a := [])
      (b := [(.str "options".toList, Derive.mapping [("o".toList, .str "1".toList)])]) (by simp))) _ _ rfl rfl⟩

/-- The type of a mount. -/
example : ∃ m m', mount.de (Derive.mapping [("type".toList, .str "npipe".toList), ("source".toList, .str "/s".toList),
      ("target".toList, .str "/t".toList)]) = .ok m ∧
    mount.de (Derive.mapping [("type".toList, .str "bind".toList), ("source".toList, .str "/s".toList),
      ("target".toList, .str "/t".toList)]) = .ok m' ∧ DifferAt ["type".toList] (mount.ser m) (mount.ser m') :=
  ⟨_, _, rfl, rfl, C99_mount _ _ _ (.value (v := .str "npipe".toList) (w := .str "bind".toList) (a := [])
    (b := [(.str "source".toList, .str "/s".toList), (.str "target".toList, .str "/t".toList)]) (by simp) .here) _ _ rfl rfl⟩

/-- The interval of a health check. -/
example : ∃ x y, Codecs.healthcheck.de (Derive.mapping [("test".toList, .str "true".toList), ("retries".toList, .u64 1)]) = .ok x ∧
    Codecs.healthcheck.de (Derive.mapping [("test".toList, .str "true".toList), ("retries".toList, .u64 2)]) = .ok y ∧
    DifferAt ["retries".toList] (Codecs.healthcheck.ser x) (Codecs.healthcheck.ser y) :=
  ⟨_, _, rfl, rfl, C99_healthcheck _ _ _ (fun ⟨_, hp⟩ => absurd (List.cons.inj hp).1 (by decide))
    (.value (v := .u64 1) (w := .u64 2) (a := [(.str "test".toList, .str "true".toList)]) (b := []) (by simp) .here) _ _ rfl rfl⟩

end Props
