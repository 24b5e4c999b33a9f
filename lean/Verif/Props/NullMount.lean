import Verif.Props.Null
import Verif.Spec.NullMount

/- C91: null in the long syntax of a mount. -/

namespace Props
open Rust Compose Compose.Derive Spec Proofs

section
variable {own : List Str} {is : List Item} {k : Str}

/-- What null for a key that is not one of the struct itself means for its fields. -/
private def Passes (k : Str) : Item → Prop
  | .field f => f.key ≠ k
  | .flat f => f.keys = none ∧ ∀ a b, (∀ e ∈ a, e.1 ≠ k) → (∀ e ∈ b, e.1 ≠ k) → ∀ x,
      f.read (a ++ (k, .unit) :: b) = .ok x ↔ f.read (a ++ b) = .ok x

private theorem stands_passes (hk : k ∉ own) (hi : ∀ i ∈ is, Passes k i) {a b : List (Str × Content)} (ha : ∀ e ∈ a, e.1 ≠ k)
    (hb : ∀ e ∈ b, e.1 ≠ k) (r : Record is) : StandsFor own (a ++ (k, .unit) :: b) is r ↔ StandsFor own (a ++ b) is r := by
  induction is with
  | nil => exact Iff.rfl
  | cons i is ih =>
    obtain ⟨hi, his⟩ := List.forall_mem_cons.1 hi
    obtain ⟨x, r⟩ := r
    cases i with
    | field f =>
      refine and_congr ?_ (ih his r)
      rw [given_insert, if_neg (Ne.symm hi), given_append, List.append_nil]
    | flat f =>
      refine and_congr ?_ (ih his r)
      unfold entriesFor
      rw [hi.1]
      simp only [List.filter_append, List.filter_cons, hk, not_false_eq_true, decide_true, if_true]
      exact hi.2 _ _ (fun e he => ha e (List.mem_filter.1 he).1) (fun e he => hb e (List.mem_filter.1 he).1) x

private theorem stands_refuses (hk : k ∉ own) {f : Flat} (hf : .flat f ∈ is) (hn : f.keys = none)
    (hr : ∀ es, (k, Content.unit) ∈ es → ∀ x, f.read es ≠ .ok x) {es : List (Str × Content)} (he : (k, .unit) ∈ es)
    (r : Record is) : ¬ StandsFor own es is r := by
  induction is with
  | nil => cases hf
  | cons i is ih =>
    obtain ⟨x, r⟩ := r
    rcases List.mem_cons.1 hf with h | h
    · subst h
      intro h
      refine hr _ ?_ x h.1
      unfold entriesFor
      rw [hn]
      exact List.mem_filter.2 ⟨he, by simpa using hk⟩
    · cases i with
      | field g => exact fun h' => ih h r h'.2
      | flat g => exact fun h' => ih h r h'.2

end

private theorem line {n : Nat} {s : OptionalKeys} (h : (optionals sampleEnv)[n]? = some s) : s ∈ optionals sampleEnv :=
  List.mem_of_getElem? h

/-- Null for a key means the same as leaving the key out, for what is read by the fields of a struct. -/
private def Absent (is : List Item) (k : Str) : Prop := ∀ a b : List (Str × Content), (∀ e ∈ a, e.1 ≠ k) → (∀ e ∈ b, e.1 ≠ k) →
  ∀ r, decode is (a ++ (k, .unit) :: b) = .ok r ↔ decode is (a ++ b) = .ok r

/-- Null for a key is an error, for what is read by the fields of a struct. -/
private def Refused (is : List Item) (k : Str) : Prop := ∀ es : List (Str × Content), (k, .unit) ∈ es →
  ∀ r, decode is es ≠ .ok r

private theorem own_absent {n : Nat} {s : OptionalKeys} (hs : (optionals sampleEnv)[n]? = some s) {k : String}
    (hk : k ∈ s.optional) (hd : k ∉ s.durations) : Absent s.info.fields k.toList := by
  intro a b ha hb r
  have := C91_null_is_absent_partial sampleEnv s (line hs) k hk hd a b ha hb r
  rwa [struct_de_mapping, struct_de_mapping] at this

private theorem own_refused {n : Nat} {s : OptionalKeys} (hs : (optionals sampleEnv)[n]? = some s) {k : String}
    (hk : k ∈ s.info.keys) (hd : k ∉ s.optional ∨ k ∈ s.durations) : Refused s.info.fields k.toList := by
  intro es he r
  have := C91_null_refused sampleEnv s (line hs) k hk hd es he r
  rwa [struct_de_mapping] at this

private theorem common_absent : Absent Structs.common "consistency".toList :=
  own_absent (n := 33) rfl (by decide) (by decide)

private theorem nested_absent {n : Nat} {s : OptionalKeys} (hs : (optionals sampleEnv)[n]? = some s)
    (hk : "consistency" ∉ s.info.keys) (hi : ∀ i ∈ s.info.fields, Passes "consistency".toList i) :
    Absent s.info.fields "consistency".toList := by
  intro a b ha hb r
  have kn := all_known sampleEnv _ (mem_optionals (line hs))
  rw [decode_ok kn.good, decode_ok kn.good, kn.keys]
  refine stands_passes (fun h => ?_) hi ha hb r
  obtain ⟨k, h1, h2⟩ := List.mem_map.1 h
  exact hk (String.toList_injective h2 ▸ h1)

private theorem nested_refused {n : Nat} {s : OptionalKeys} (hs : (optionals sampleEnv)[n]? = some s) {k : String}
    (hk : k ∉ s.info.keys) (hc : k = "target" ∨ k = "read_only") (hf : Codecs.nested Structs.common ∈ s.info.fields) :
    Refused s.info.fields k.toList := by
  intro es he r
  have kn := all_known sampleEnv _ (mem_optionals (line hs))
  rw [ne_eq, decode_ok kn.good, kn.keys]
  refine stands_refuses (fun h => ?_) hf rfl ?_ he r
  · obtain ⟨k', h1, h2⟩ := List.mem_map.1 h
    exact hk (String.toList_injective h2 ▸ h1)
  · have : Refused Structs.common k.toList := by
      rcases hc with rfl | rfl
      · exact own_refused (n := 33) rfl (by decide) (.inl (by decide))
      · exact own_refused (n := 33) rfl (by decide) (.inl (by decide))
    exact this

private theorem passes_field {α : Type} {key : String} {c : Codec (Option α)} (h : key.toList ≠ "consistency".toList) :
    Passes "consistency".toList (Codecs.optWith key c) := h

private theorem passes_common : Passes "consistency".toList (Codecs.nested Structs.common) := ⟨rfl, common_absent⟩

private theorem filter_tag {k : Str} (hk : k ≠ Structs.tagKey) (v : Content) (a b : List (Str × Content)) :
    (a ++ (k, v) :: b).filter (fun e => e.1 = Structs.tagKey) = (a ++ b).filter (fun e => e.1 = Structs.tagKey) ∧
    (a ++ (k, v) :: b).filter (fun e => e.1 ≠ Structs.tagKey) =
      a.filter (fun e => e.1 ≠ Structs.tagKey) ++ (k, v) :: b.filter (fun e => e.1 ≠ Structs.tagKey) := by
  simp [List.filter_append, hk]

/-- The fields of the types of mounts. -/
private def fieldsOf (t : String) : List Item :=
  if t = "volume" then Structs.mountVolume else if t = "bind" then Structs.mountBind else if t = "tmpfs" then Structs.mountTmpfs
  else if t = "npipe" then Structs.mountNamedPipe else Structs.mountCluster

private theorem types_absent {t : String} {o q : List String} (ht : (t, o, q) ∈ mountKeys) {k : String} (hk : k ∈ o) :
    Absent (fieldsOf t) k.toList := by
  have req : ∀ {α : Type} {key : String} {c : Codec α}, key.toList ≠ "consistency".toList →
      Passes "consistency".toList (Codecs.req key c) := fun h => h
  simp only [mountKeys, List.mem_cons, List.not_mem_nil, or_false, Prod.mk.injEq] at ht
  rcases ht with ⟨rfl, rfl, -⟩ | ⟨rfl, rfl, -⟩ | ⟨rfl, rfl, -⟩ | ⟨rfl, rfl, -⟩ | ⟨rfl, rfl, -⟩ <;>
    simp only [List.mem_cons, List.not_mem_nil, or_false] at hk
  · show Absent Structs.mountVolume _
    rcases hk with rfl | rfl | rfl
    · exact own_absent (n := 35) rfl (by decide) (by decide)
    · exact own_absent (n := 35) rfl (by decide) (by decide)
    · exact nested_absent (n := 35) rfl (by decide) (List.forall_mem_cons.2 ⟨passes_field (by decide),
        List.forall_mem_cons.2 ⟨passes_field (by decide), List.forall_mem_singleton.2 passes_common⟩⟩)
  · show Absent Structs.mountBind _
    rcases hk with rfl | rfl
    · exact own_absent (n := 37) rfl (by decide) (by decide)
    · exact nested_absent (n := 37) rfl (by decide) (List.forall_mem_cons.2 ⟨req (by decide),
        List.forall_mem_cons.2 ⟨passes_field (by decide), List.forall_mem_singleton.2 passes_common⟩⟩)
  · show Absent Structs.mountTmpfs _
    rcases hk with rfl | rfl
    · exact own_absent (n := 39) rfl (by decide) (by decide)
    · exact nested_absent (n := 39) rfl (by decide) (List.forall_mem_cons.2 ⟨passes_field (by decide),
        List.forall_mem_singleton.2 passes_common⟩)
  · show Absent Structs.mountNamedPipe _
    subst hk
    exact nested_absent (n := 40) rfl (by decide) (List.forall_mem_cons.2 ⟨req (by decide),
      List.forall_mem_singleton.2 passes_common⟩)
  · show Absent Structs.mountCluster _
    subst hk
    exact nested_absent (n := 41) rfl (by decide) (List.forall_mem_cons.2 ⟨req (by decide),
      List.forall_mem_singleton.2 passes_common⟩)

private theorem types_refused {t : String} {o q : List String} (ht : (t, o, q) ∈ mountKeys) {k : String} (hk : k ∈ q) :
    Refused (fieldsOf t) k.toList := by
  simp only [mountKeys, List.mem_cons, List.not_mem_nil, or_false, Prod.mk.injEq] at ht
  rcases ht with ⟨rfl, -, rfl⟩ | ⟨rfl, -, rfl⟩ | ⟨rfl, -, rfl⟩ | ⟨rfl, -, rfl⟩ | ⟨rfl, -, rfl⟩ <;>
    simp only [List.mem_cons, List.not_mem_nil, or_false] at hk
  · show Refused Structs.mountVolume _
    exact nested_refused (n := 35) rfl (by rcases hk with rfl | rfl <;> decide) hk (.tail _ (.tail _ (.head _)))
  · show Refused Structs.mountBind _
    rcases hk with rfl | hk
    · exact own_refused (n := 37) rfl (by decide) (.inl (by decide))
    · exact nested_refused (n := 37) rfl (by rcases hk with rfl | rfl <;> decide) hk (.tail _ (.tail _ (.head _)))
  · show Refused Structs.mountTmpfs _
    exact nested_refused (n := 39) rfl (by rcases hk with rfl | rfl <;> decide) hk (.tail _ (.head _))
  · show Refused Structs.mountNamedPipe _
    rcases hk with rfl | hk
    · exact own_refused (n := 40) rfl (by decide) (.inl (by decide))
    · exact nested_refused (n := 40) rfl (by rcases hk with rfl | rfl <;> decide) hk (.tail _ (.head _))
  · show Refused Structs.mountCluster _
    rcases hk with rfl | hk
    · exact own_refused (n := 41) rfl (by decide) (.inl (by decide))
    · exact nested_refused (n := 41) rfl (by rcases hk with rfl | rfl <;> decide) hk (.tail _ (.head _))

private theorem mount_map_ok {α β : Type} {f : α → β} {o : Outcome Unit α} {m : β} : o.map f = .ok m ↔ ∃ r, o = .ok r ∧ m = f r := by
  cases o with
  | ok r => exact ⟨fun h => ⟨r, rfl, by cases h; rfl⟩, fun ⟨r', h1, h2⟩ => by cases h1; rw [h2]; rfl⟩
  | err e => exact ⟨nofun, nofun⟩
  | panic => exact ⟨nofun, nofun⟩

private theorem de_mapping (es : List (Str × Content)) : Structs.mount.de (Derive.mapping es) = Structs.mountRead es := by
  show (Outcome.ofOption (Compose.entriesOf (Derive.mapping es))).bind Structs.mountRead = _
  rw [Proofs.entriesOf_mapping]; rfl

/-- A mount of a type is what the fields of the type are read as. -/
private theorem read_as {t : String} {o q : List String} (ht : (t, o, q) ∈ mountKeys) : ∃ f : Record (fieldsOf t) → Structs.MountOf,
    ∀ es, given es "type".toList = [.str t.toList] → ∀ m, Structs.mount.de (Derive.mapping es) = .ok m ↔
      ∃ r, decode (fieldsOf t) (es.filter fun e => e.1 ≠ Structs.tagKey) = .ok r ∧ m = f r := by
  have tag : ∀ es : List (Str × Content), ∀ c, given es "type".toList = [c] →
      ∃ k, es.filter (fun e => e.1 = Structs.tagKey) = [(k, c)] := by
    intro es c h
    have h' : (es.filter fun e => e.1 = Structs.tagKey).map (·.2) = [c] := h
    obtain ⟨⟨k, c'⟩, h1, h2⟩ := List.map_eq_singleton_iff.1 h'
    exact ⟨k, by rw [h1]; cases h2; rfl⟩
  simp only [mountKeys, List.mem_cons, List.not_mem_nil, or_false, Prod.mk.injEq] at ht
  rcases ht with ⟨rfl, -⟩ | ⟨rfl, -⟩ | ⟨rfl, -⟩ | ⟨rfl, -⟩ | ⟨rfl, -⟩
  · refine ⟨Structs.MountOf.volume, fun es h m => ?_⟩
    obtain ⟨k, h⟩ := tag es _ h
    rw [de_mapping, Structs.mountRead, h]
    exact mount_map_ok
  · refine ⟨Structs.MountOf.bind, fun es h m => ?_⟩
    obtain ⟨k, h⟩ := tag es _ h
    rw [de_mapping, Structs.mountRead, h]
    exact mount_map_ok
  · refine ⟨Structs.MountOf.tmpfs, fun es h m => ?_⟩
    obtain ⟨k, h⟩ := tag es _ h
    rw [de_mapping, Structs.mountRead, h]
    exact mount_map_ok
  · refine ⟨Structs.MountOf.namedPipe, fun es h m => ?_⟩
    obtain ⟨k, h⟩ := tag es _ h
    rw [de_mapping, Structs.mountRead, h]
    exact mount_map_ok
  · refine ⟨Structs.MountOf.cluster, fun es h m => ?_⟩
    obtain ⟨k, h⟩ := tag es _ h
    rw [de_mapping, Structs.mountRead, h]
    exact mount_map_ok

private theorem not_tag {t : String} {o q : List String} (ht : (t, o, q) ∈ mountKeys) {k : String} (hk : k ∈ o ∨ k ∈ q) :
    k.toList ≠ "type".toList := by
  have h : ∀ l ∈ mountKeys, ∀ k ∈ l.2.1 ++ l.2.2, k.toList ≠ "type".toList := by decide +kernel
  exact h _ ht k (List.mem_append.2 hk)

/-- C91: null for an optional setting of a mount, also for one that all types of mounts have, means the same as leaving the
key out: a mount with such an entry, anywhere in it, is read exactly if it is read without the entry, and as the same mount. -/
theorem C91_mount (t : String) (optional others : List String) (ht : (t, optional, others) ∈ mountKeys) (k : String)
    (hk : k ∈ optional) (before after : List (Str × Content)) (h1 : ∀ e ∈ before, e.1 ≠ k.toList)
    (h2 : ∀ e ∈ after, e.1 ≠ k.toList) (hg : given (before ++ after) "type".toList = [.str t.toList]) (m : Structs.MountOf) :
    Structs.mount.de (Derive.mapping (before ++ (k.toList, .unit) :: after)) = .ok m ↔
    Structs.mount.de (Derive.mapping (before ++ after)) = .ok m := by
  obtain ⟨f, hf⟩ := read_as ht
  have hn := not_tag ht (.inl hk)
  have hg' : given (before ++ (k.toList, .unit) :: after) "type".toList = [.str t.toList] := by
    rw [given_insert, if_neg hn, List.append_nil, ← given_append]; exact hg
  rw [hf _ hg', hf _ hg]
  refine exists_congr fun r => and_congr ?_ Iff.rfl
  rw [(filter_tag hn _ _ _).2, List.filter_append]
  exact types_absent ht hk _ _ (fun e he => h1 e (List.mem_filter.1 he).1) (fun e he => h2 e (List.mem_filter.1 he).1) r

/-- A volume of no name and a consistency that is not given, around the type. -/
example : ∃ m, Structs.mount.de (Derive.mapping [("target".toList, .str "/t".toList), ("consistency".toList, .unit),
    ("type".toList, .str "volume".toList)]) = .ok m ∧
    Structs.mount.de (Derive.mapping [("target".toList, .str "/t".toList), ("type".toList, .str "volume".toList)]) = .ok m :=
  ⟨_, (C91_mount "volume" _ _ (.head _) "consistency" (by decide) [("target".toList, .str "/t".toList)]
    [("type".toList, .str "volume".toList)] (by decide) (by decide) rfl _).2 rfl, rfl⟩

/-- C91: null is an error for every other setting of a mount. -/
theorem C91_mount_refused (t : String) (optional others : List String) (ht : (t, optional, others) ∈ mountKeys) (k : String)
    (hk : k ∈ others) (es : List (Str × Content)) (he : (k.toList, .unit) ∈ es)
    (hg : given es "type".toList = [.str t.toList]) (m : Structs.MountOf) : Structs.mount.de (Derive.mapping es) ≠ .ok m := by
  obtain ⟨f, hf⟩ := read_as ht
  rw [ne_eq, hf _ hg]
  rintro ⟨r, hr, -⟩
  exact types_refused ht hk _ (List.mem_filter.2 ⟨he, decide_eq_true (not_tag ht (.inr hk))⟩) r hr

/-- A bind without a source. -/
example (m : Structs.MountOf) : Structs.mount.de (Derive.mapping [("source".toList, .unit), ("type".toList, .str "bind".toList),
    ("target".toList, .str "/t".toList)]) ≠ .ok m :=
  C91_mount_refused "bind" _ _ (.tail _ (.head _)) "source" (by decide) _ (.head _) rfl m

/-- C91: so it is for the type. -/
theorem C91_mount_type (es : List (Str × Content)) (he : ("type".toList, .unit) ∈ es) (m : Structs.MountOf) :
    Structs.mount.de (Derive.mapping es) ≠ .ok m := by
  rw [de_mapping]
  unfold Structs.mountRead
  have hm : ("type".toList, Content.unit) ∈ es.filter (fun e => e.1 = Structs.tagKey) :=
    List.mem_filter.2 ⟨he, by simp [Structs.tagKey]⟩
  split
  · rename_i h
    rw [h] at hm
    simp at hm
  · nofun

/-- A type that is not given. -/
example (m : Structs.MountOf) : Structs.mount.de (Derive.mapping [("target".toList, .str "/t".toList), ("type".toList, .unit)]) ≠ .ok m :=
  C91_mount_type _ (.tail _ (.head _)) m

end Props
