import Verif.Proofs.OrderEqual
import Verif.Props.Longhand

/- C98: the order of keys, anywhere in a document. -/

namespace Props
open Rust Compose Compose.Derive Compose.Codecs Compose.Structs Spec Proofs

theorem unordered_part {is : List Item} {keys required oneOf : List String} {rest : Rest} {timed : Bool} [h : Unordered (struct is)] :
    "healthcheck" ∉ (StructInfo.mk is keys required oneOf rest timed).keys →
      Unordered (struct (StructInfo.mk is keys required oneOf rest timed).fields) := fun _ => h

theorem unordered_parts (E : Env) : ∀ s ∈ parts E, "healthcheck" ∉ s.keys → Unordered (struct s.fields) := by
  unfold parts
  repeat refine List.forall_mem_cons.2 ⟨unordered_part, ?_⟩
  refine List.forall_mem_cons.2 ⟨fun h => absurd ?_ h, fun _ h => by cases h⟩
  simp

/-- C98: where entries change places anywhere in the document of a struct other than a service, or of one of its parts, it
can be read as before, and the document written of what has been read differs at most in its order. -/
theorem C98_struct (E : Env) (s : StructInfo) (hs : s ∈ parts E) (hk : "healthcheck" ∉ s.keys) (v w : Content) (h : SameButOrder v w)
    (r : Record s.fields) (hr : (struct s.fields).de v = .ok r) :
    ∃ r', (struct s.fields).de w = .ok r' ∧ SameButOrder ((struct s.fields).ser r) ((struct s.fields).ser r') :=
  (unordered_parts E s hs hk).free.all h hr

/-- C98: the same for mounts. -/
theorem C98_mount (v w : Content) (h : SameButOrder v w) (m : MountOf) (hm : mount.de v = .ok m) :
    ∃ m', mount.de w = .ok m' ∧ SameButOrder (mount.ser m) (mount.ser m') := Unordered.free.all h hm

/-- C98: the same for the networks, volumes, configs, and secrets at the top of a file. -/
theorem C98_resource (E : Env) [EnvOk E] (is : List Item) (hi : is ∈ [network E, volume, config, secret]) (v w : Content)
    (h : SameButOrder v w) (r : Resource (Record is)) (hr : (resource E is).de v = .ok r) :
    ∃ r', (resource E is).de w = .ok r' ∧ SameButOrder ((resource E is).ser r) ((resource E is).ser r') := by
  simp only [List.mem_cons, List.not_mem_nil, or_false] at hi
  rcases hi with rfl | rfl | rfl | rfl <;> exact Unordered.free.all h hr

/-- C98: the same for services, where `disable` and `test` of the health check keep their order, and the extensions in each
of the ports and volumes keep theirs.  Missing: these may change places as well. -/
theorem C98_service_partial (E : Env) [ValueEqUnordered E] (v w : Content) (h : Reordered ServiceFixed v w) (r : Record (service E))
    (hr : (struct (service E)).de v = .ok r) :
    ∃ r', (struct (service E)).de w = .ok r' ∧ SameButOrder ((struct (service E)).ser r) ((struct (service E)).ser r') :=
  service_free.all h hr

/-- C98: the same for files. -/
theorem C98_file_partial (E : Env) [EnvOk E] [ValueEqUnordered E] (v w : Content) (h : Reordered FileFixed v w)
    (r : Record (compose E)) (hr : (struct (compose E)).de v = .ok r) :
    ∃ r', (struct (compose E)).de w = .ok r' ∧ SameButOrder ((struct (compose E)).ser r) ((struct (compose E)).ser r') :=
  compose_free.all h hr

/-- C98: so a file can be read in one order exactly if it can be read in the other. -/
theorem C98_readable_partial (E : Env) [EnvOk E] [ValueEqUnordered E] (v w : Content) (h : Reordered FileFixed v w) :
    (∃ r, (struct (compose E)).de v = .ok r) ↔ ∃ r, (struct (compose E)).de w = .ok r :=
  ⟨fun ⟨r, hr⟩ => (C98_file_partial E v w h r hr).imp fun _ h => h.1,
    fun ⟨r, hr⟩ => (C98_file_partial E w v h.symm r hr).imp fun _ h => h.1⟩

/-! ### Where the order matters -/

theorem textOf_exchanged {F : Fixed} {v w : Content} (h : Exchanged F v w) : textOf v = textOf w := by cases h <;> rfl

instance : ValueEqUnordered textEnv where
  same v w u h := by
    have e : textOf v = textOf w := by
      induction h with
      | refl => rfl
      | tail _ h ih => exact ih.trans (textOf_exchanged h)
    simp only [textEnv, e, and_self]

/-- A service with a health check that is both disabled and not. -/
def checkedService : Content := Derive.mapping [("healthcheck".toList, Derive.mapping
  [("disable".toList, .bool false), ("test".toList, .seq [.str "NONE".toList])])]

/-- The same service with the settings of the health check in the other order. -/
def checkedServiceSwapped : Content := Derive.mapping [("healthcheck".toList, Derive.mapping
  [("test".toList, .seq [.str "NONE".toList]), ("disable".toList, .bool false)])]

/-- The order of the settings of a health check decides whether a service can be read. -/
theorem C98_healthcheck_false :
    ¬ ∀ (v w : Content), SameButOrder v w → ∀ r : Record (service textEnv), (struct (service textEnv)).de v = .ok r →
      ∃ r', (struct (service textEnv)).de w = .ok r' := by
  intro h
  have h1 : SameButOrder checkedService checkedServiceSwapped :=
    .single (.value (a := []) (b := []) (.here (a := []) (b := []) (by simp) fun h => h.1))
  have h2 : ∃ r, (struct (service textEnv)).de checkedService = .ok r := ⟨_, rfl⟩
  obtain ⟨r, h2⟩ := h2
  obtain ⟨r', h3⟩ := h _ _ h1 r h2
  have h4 : (struct (service textEnv)).de checkedServiceSwapped = .err () := rfl
  rw [h4] at h3
  cases h3

/-- A service with two ports that differ in the order of their extensions. -/
def twoPorts : Content := Derive.mapping [("ports".toList, .seq [
  Derive.mapping [("target".toList, .u64 80), ("x-a".toList, .str "1".toList), ("x-b".toList, .str "2".toList)],
  Derive.mapping [("target".toList, .u64 80), ("x-b".toList, .str "2".toList), ("x-a".toList, .str "1".toList)]])]

/-- The same ports, with the extensions in the same order. -/
def twoPortsSwapped : Content := Derive.mapping [("ports".toList, .seq [
  Derive.mapping [("target".toList, .u64 80), ("x-a".toList, .str "1".toList), ("x-b".toList, .str "2".toList)],
  Derive.mapping [("target".toList, .u64 80), ("x-a".toList, .str "1".toList), ("x-b".toList, .str "2".toList)]])]

/-- How many items the document of a struct lists for a key. -/
def itemsFor (key : String) : Content → List Nat
  | .map es => es.filterMap fun
    | (.str k, .seq vs) => if k = key.toList then some vs.length else none
    | _ => none
  | _ => []

/-- The order of the extensions of a port decides how many ports a service has. -/
theorem C98_ports_false :
    ¬ ∀ (v w : Content), SameButOrder v w → ∀ r r' : Record (service textEnv), (struct (service textEnv)).de v = .ok r →
      (struct (service textEnv)).de w = .ok r' →
        itemsFor "ports" ((struct (service textEnv)).ser r) = itemsFor "ports" ((struct (service textEnv)).ser r') := by
  intro h
  have h1 : SameButOrder twoPorts twoPortsSwapped :=
    .single (.value (a := []) (b := []) (.item (a := [_]) (b := []) (.here (a := [_]) (b := []) (by simp) fun h => h.1)))
  have h2 : ∃ r, (struct (service textEnv)).de twoPorts = .ok r ∧ itemsFor "ports" ((struct (service textEnv)).ser r) = [2] :=
    ⟨_, rfl, rfl⟩
  have h3 : ∃ r, (struct (service textEnv)).de twoPortsSwapped = .ok r ∧ itemsFor "ports" ((struct (service textEnv)).ser r) = [1] :=
    ⟨_, rfl, rfl⟩
  obtain ⟨r, h2, h4⟩ := h2
  obtain ⟨r', h3, h5⟩ := h3
  have := h _ _ h1 r r' h2 h3
  rw [h4, h5] at this
  cases this

/-- A service with two volumes that differ in the order of their extensions. -/
def twoVolumes : Content := Derive.mapping [("volumes".toList, .seq [
  Derive.mapping [("type".toList, .str "tmpfs".toList), ("target".toList, .str "/t".toList), ("x-a".toList, .str "1".toList),
    ("x-b".toList, .str "2".toList)],
  Derive.mapping [("type".toList, .str "tmpfs".toList), ("target".toList, .str "/t".toList), ("x-b".toList, .str "2".toList),
    ("x-a".toList, .str "1".toList)]])]

/-- The same volumes, with the extensions in the same order. -/
def twoVolumesSwapped : Content := Derive.mapping [("volumes".toList, .seq [
  Derive.mapping [("type".toList, .str "tmpfs".toList), ("target".toList, .str "/t".toList), ("x-a".toList, .str "1".toList),
    ("x-b".toList, .str "2".toList)],
  Derive.mapping [("type".toList, .str "tmpfs".toList), ("target".toList, .str "/t".toList), ("x-a".toList, .str "1".toList),
    ("x-b".toList, .str "2".toList)]])]

set_option maxRecDepth 4000 in
/-- The order of the extensions of a volume decides how many volumes a service has. -/
theorem C98_volumes_false :
    ¬ ∀ (v w : Content), SameButOrder v w → ∀ r r' : Record (service textEnv), (struct (service textEnv)).de v = .ok r →
      (struct (service textEnv)).de w = .ok r' → (Load.service textEnv r).volumes.length = (Load.service textEnv r').volumes.length := by
  intro h
  have h1 : SameButOrder twoVolumes twoVolumesSwapped :=
    .single (.value (a := []) (b := []) (.item (a := [_]) (b := []) (.here (a := [_, _]) (b := []) (by simp) fun h => h.1)))
  have h2 : ∃ r, (struct (service textEnv)).de twoVolumes = .ok r ∧ (Load.service textEnv r).volumes.length = 2 := ⟨_, rfl, rfl⟩
  have h3 : ∃ r, (struct (service textEnv)).de twoVolumesSwapped = .ok r ∧ (Load.service textEnv r).volumes.length = 1 := ⟨_, rfl, rfl⟩
  obtain ⟨r, h2, h4⟩ := h2
  obtain ⟨r', h3, h5⟩ := h3
  have := h _ _ h1 r r' h2 h3
  omega

/-! ### Examples -/

/-- A document with its entries in some order. -/
def sampleOrder : Content := Derive.mapping
  [("x-a".toList, Derive.mapping [("b".toList, .unit), ("a".toList, .unit)]), ("labels".toList, .seq [.str "l=1".toList]),
    ("ipam".toList, Derive.mapping [("options".toList, Derive.mapping [("p".toList, .str "2".toList), ("o".toList, .str "1".toList)]),
      ("driver".toList, .str "d".toList)])]

/-- The same entries in another order. -/
def sampleOrdered : Content := Derive.mapping
  [("ipam".toList, Derive.mapping [("driver".toList, .str "d".toList),
      ("options".toList, Derive.mapping [("o".toList, .str "1".toList), ("p".toList, .str "2".toList)])]),
    ("labels".toList, .seq [.str "l=1".toList]), ("x-a".toList, Derive.mapping [("a".toList, .unit), ("b".toList, .unit)])]

theorem sampleOrder_same : SameButOrder sampleOrder sampleOrdered := by
  have t : ∀ {k k' v v' : Content}, k ≠ k' → SameButOrder (.map [(k, v), (k', v')]) (.map [(k', v'), (k, v)]) := fun h =>
    .single (.here (a := []) (b := []) h fun h => h.1)
  have h1 : SameButOrder (.map [(Content.str "options".toList, Derive.mapping [("p".toList, .str "2".toList), ("o".toList, .str "1".toList)]),
      (.str "driver".toList, .str "d".toList)]) (.map [(.str "driver".toList, .str "d".toList),
      (.str "options".toList, Derive.mapping [("o".toList, .str "1".toList), ("p".toList, .str "2".toList)])]) :=
    (t (by simp)).trans (reordered_value (a := [_]) (b := []) (t (by simp)))
  refine .trans (reordered_value (a := []) (b := [_, _]) (t (by simp))) ?_
  refine .trans (reordered_value (a := [_, _]) (b := []) h1) ?_
  exact reordered_perm ((List.Perm.swap ..).trans ((List.Perm.swap ..).cons _ |>.trans (List.Perm.swap ..)) |>.trans (.refl _)) (by simp)

/-- A network with its settings in two orders. -/
example : ∃ r r', (struct (network textEnv)).de sampleOrder = .ok r ∧ (struct (network textEnv)).de sampleOrdered = .ok r' ∧
    SameButOrder ((struct (network textEnv)).ser r) ((struct (network textEnv)).ser r') := by
  have h : ∃ r, (struct (network textEnv)).de sampleOrder = .ok r := ⟨_, rfl⟩
  obtain ⟨r, h⟩ := h
  obtain ⟨r', h'⟩ := C98_struct textEnv (networkInfo textEnv) (by simp [parts, networkInfo]) (by simp [networkInfo]) _ _ sampleOrder_same r h
  exact ⟨r, r', h, h'⟩

example : ∃ r r', (resource textEnv (network textEnv)).de sampleOrder = .ok r ∧
    (resource textEnv (network textEnv)).de sampleOrdered = .ok r' ∧
    SameButOrder ((resource textEnv (network textEnv)).ser r) ((resource textEnv (network textEnv)).ser r') := by
  have h : ∃ r, (resource textEnv (network textEnv)).de sampleOrder = .ok r := ⟨_, rfl⟩
  obtain ⟨r, h⟩ := h
  obtain ⟨r', h'⟩ := C98_resource textEnv _ List.mem_cons_self _ _ sampleOrder_same r h
  exact ⟨r, r', h, h'⟩

/-- The entries of a mount. -/
def sampleMountEntries : List (Content × Content) :=
  [(.str "target".toList, .str "/t".toList), (.str "x-a".toList, .unit), (.str "type".toList, .str "tmpfs".toList),
    (.str "x-b".toList, .unit), (.str "tmpfs".toList, Derive.mapping [("size".toList, .u64 1)])]

example : ∃ m m', mount.de (.map sampleMountEntries) = .ok m ∧ mount.de (.map sampleMountEntries.reverse) = .ok m' ∧
    SameButOrder (mount.ser m) (mount.ser m') := by
  have h : ∃ m, mount.de (.map sampleMountEntries) = .ok m := ⟨_, rfl⟩
  obtain ⟨m, h⟩ := h
  obtain ⟨m', h'⟩ := C98_mount _ _ (reordered_perm (List.reverse_perm _).symm (by simp [sampleMountEntries])) m h
  exact ⟨m, m', h, h'⟩

/-- A service with a port and a health check. -/
def sampleService (es fs : List (Str × Content)) : Content := Derive.mapping
  [("ports".toList, .seq [.str "1".toList, Derive.mapping es]), ("healthcheck".toList, Derive.mapping fs)]

theorem sampleService_order : Reordered ServiceFixed
    (sampleService [("x-a".toList, .unit), ("target".toList, .u64 80), ("mode".toList, .str "host".toList)]
      [("test".toList, .str "true".toList), ("interval".toList, .str "1s".toList)])
    (sampleService [("target".toList, .u64 80), ("x-a".toList, .unit), ("mode".toList, .str "host".toList)]
      [("interval".toList, .str "1s".toList), ("test".toList, .str "true".toList)]) := by
  refine .tail (.single (.value (a := []) (b := [_]) (.item (a := [_]) (b := [])
    (.here (a := []) (b := [_]) (by simp) ?_)))) (.value (a := [_]) (b := []) (.here (a := []) (b := []) (by simp) ?_))
  · rintro ⟨-, h⟩
    have h : ServiceFixed [.key (.str "ports".toList), .item] (.str "target".toList) := h
    cases h with
    | port h =>
      obtain ⟨s, h1, h2⟩ := h
      cases h1
      simp [ExtensionKey] at h2
  · rintro ⟨-, h⟩
    cases h

example : ∃ r r', (struct (service textEnv)).de (sampleService [("x-a".toList, .unit), ("target".toList, .u64 80),
      ("mode".toList, .str "host".toList)] [("test".toList, .str "true".toList), ("interval".toList, .str "1s".toList)]) = .ok r ∧
    (struct (service textEnv)).de (sampleService [("target".toList, .u64 80), ("x-a".toList, .unit),
      ("mode".toList, .str "host".toList)] [("interval".toList, .str "1s".toList), ("test".toList, .str "true".toList)]) = .ok r' ∧
    SameButOrder ((struct (service textEnv)).ser r) ((struct (service textEnv)).ser r') := by
  have h : ∃ r, (struct (service textEnv)).de (sampleService [("x-a".toList, .unit), ("target".toList, .u64 80),
      ("mode".toList, .str "host".toList)] [("test".toList, .str "true".toList), ("interval".toList, .str "1s".toList)]) = .ok r := ⟨_, rfl⟩
  obtain ⟨r, h⟩ := h
  obtain ⟨r', h'⟩ := C98_service_partial textEnv _ _ sampleService_order r h
  exact ⟨r, r', h, h'⟩

/-- A file, and the same with its entries in another order. -/
theorem sampleFile_order (v : Content) : Reordered FileFixed
    (Derive.mapping [("services".toList, Derive.mapping [("b".toList, Derive.mapping []), ("a".toList, v)]), ("x-b".toList, .unit),
      ("x-a".toList, .unit)])
    (Derive.mapping [("services".toList, Derive.mapping [("a".toList, v), ("b".toList, Derive.mapping [])]), ("x-a".toList, .unit),
      ("x-b".toList, .unit)]) := by
  refine .tail (.single (.value (a := []) (b := [_, _]) (.here (a := []) (b := []) (by simp) ?_)))
    (.here (a := [_]) (b := []) (by simp) ?_)
  · rintro ⟨⟨_, _, h, _⟩, -⟩; cases h
  · rintro ⟨⟨_, _, h, _⟩, -⟩; cases h

example : ∃ r r', (struct (compose textEnv)).de (Derive.mapping [("services".toList, Derive.mapping [("b".toList, Derive.mapping []),
      ("a".toList, checkedService)]), ("x-b".toList, .unit), ("x-a".toList, .unit)]) = .ok r ∧
    (struct (compose textEnv)).de (Derive.mapping [("services".toList, Derive.mapping [("a".toList, checkedService),
      ("b".toList, Derive.mapping [])]), ("x-a".toList, .unit), ("x-b".toList, .unit)]) = .ok r' ∧
    SameButOrder ((struct (compose textEnv)).ser r) ((struct (compose textEnv)).ser r') := by
  have h : ∃ r, (struct (compose textEnv)).de (Derive.mapping [("services".toList, Derive.mapping [("b".toList, Derive.mapping []),
      ("a".toList, checkedService)]), ("x-b".toList, .unit), ("x-a".toList, .unit)]) = .ok r := ⟨_, rfl⟩
  obtain ⟨r, h⟩ := h
  obtain ⟨r', h'⟩ := C98_file_partial textEnv _ _ (sampleFile_order _) r h
  exact ⟨r, r', h, h'⟩

example : ∃ r, (struct (compose textEnv)).de (Derive.mapping [("services".toList, Derive.mapping [("a".toList, checkedService),
    ("b".toList, Derive.mapping [])]), ("x-a".toList, .unit), ("x-b".toList, .unit)]) = .ok r :=
  (C98_readable_partial textEnv _ _ (sampleFile_order _)).1 ⟨_, rfl⟩

end Props
