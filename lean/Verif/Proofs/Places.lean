import Verif.Spec.Places
import Verif.Proofs.EditFiles

/- What stands at the places of documents that are read. -/

namespace Proofs
open Rust Compose Compose.Derive Compose.Codecs Spec
open Props hiding mapping entriesOf_mapping

/-- Where a document is read, the mappings at a place satisfy a predicate. -/
def Holds {α : Type} (c : Codec α) (p : List Step) (S : Content → Prop) : Prop :=
  ∀ v x, c.de v = .ok x → ∀ es, StandsAt p v (.map es) → S (.map es)

theorem nth {α : Type _} {l : List α} {x : α} (n : Nat) (h : l[n]? = some x) : x ∈ l := List.mem_of_getElem? h

section
variable {α : Type} {c : Codec α} {p : List Step} {S : Content → Prop} {k : String}

theorem holds_here : Holds c [] (ReadBy c) := fun v x h es ha => by
  cases ha
  exact ⟨x, h⟩

theorem holds_option (h : Holds c p S) : Holds (option c) p S := fun v x hx es ha => by
  cases v with
  | unit => cases ha
  | _ => obtain ⟨y, hy, -⟩ := Outcome.map_eq_ok.1 hx; exact h _ y hy es ha

theorem readAll_reads {de : Content → Outcome Unit α} {vs : List Content} {xs : List α} (h : readAll de vs = .ok xs) {v : Content}
    (hv : v ∈ vs) : ∃ x, de v = .ok x := by
  induction vs generalizing xs with
  | nil => cases hv
  | cons w vs ih =>
    obtain ⟨y, h1, h2⟩ := Outcome.bind_eq_ok.1 h
    obtain ⟨ys, h3, -⟩ := Outcome.map_eq_ok.1 h2
    rcases List.mem_cons.1 hv with rfl | hv
    · exact ⟨y, h1⟩
    · exact ih h3 hv

theorem holds_list (h : Holds c p S) : Holds (Codecs.list c) (.item :: p) S := fun v x hx es ha => by
  cases ha with
  | item hv ha => obtain ⟨y, hy⟩ := readAll_reads hx hv; exact h _ y hy es ha

theorem holds_set {e : RustEq α} (h : Holds c p S) : Holds (@Codecs.set _ e c) (.item :: p) S := fun v x hx es ha => by
  cases ha with
  | item hv ha =>
    obtain ⟨l, hl, -⟩ := Outcome.map_eq_ok.1 hx
    obtain ⟨y, hy⟩ := readAll_reads hl hv
    exact h _ y hy es ha

theorem readEntries_reads {key : Str → Option Str} {de : Content → Outcome Unit α} {es : List (Str × Content)} {l : List (Str × α)}
    (h : readEntries key de es = .ok l) {e : Str × Content} (he : e ∈ es) : ∃ x, de e.2 = .ok x := by
  induction es generalizing l with
  | nil => cases he
  | cons w es ih =>
    obtain ⟨y, -, h2⟩ := Outcome.bind_eq_ok.1 h
    obtain ⟨z, h3, h4⟩ := Outcome.bind_eq_ok.1 h2
    obtain ⟨l', h5, -⟩ := Outcome.map_eq_ok.1 h4
    rcases List.mem_cons.1 he with rfl | he
    · exact ⟨z, h3⟩
    · exact ih h5 he

theorem holds_map {key : Key} (h : Holds c p S) : Holds (Codecs.map key c) (.anyKey :: p) S := fun v x hx es ha => by
  obtain ⟨l, hl, -⟩ := Outcome.map_eq_ok.1 hx
  obtain ⟨fs, h1, h2⟩ := Outcome.bind_eq_ok.1 hl
  cases entriesOf_iff.1 (Outcome.ofOption_eq_ok.1 h1)
  generalize hm : Props.mapping fs = w at ha
  cases ha with
  | anyKey hv ha =>
    cases hm
    obtain ⟨e, he, h3⟩ := List.mem_map.1 hv
    cases h3
    obtain ⟨y, hy⟩ := readEntries_reads h2 he
    exact h _ y hy es ha

/-- Where a place does not begin with a step to an item, there is a mapping. -/
theorem at_map {v : Content} {es : List (Content × Content)} (h : StandsAt p v (.map es)) (hp : ∀ q, p ≠ .item :: q) : ∃ fs, v = .map fs := by
  cases h with
  | item => exact absurd rfl (hp _)
  | _ => exact ⟨_, rfl⟩

theorem holds_long {T : Type} {s : Codec T} (h : Holds c p S) (hp : ∀ q, p ≠ .item :: q) : Holds (shortOrLong s c) p S :=
  fun v x hx es ha => by
    obtain ⟨fs, rfl⟩ := at_map ha hp
    obtain ⟨y, hy, -⟩ := Outcome.map_eq_ok.1 hx
    exact h _ y hy es ha

/-- The last value of a key, in the entries. -/
theorem at_key {v : Content} {u : Content} {fs : List (Str × Content)} (h : StandsAt (.key k :: p) v u) (hv : v = Derive.mapping fs) :
    ∃ a w b, fs = a ++ (k.toList, w) :: b ∧ k.toList ∉ b.map (·.1) ∧ StandsAt p w u := by
  cases h with
  | key h1 h2 =>
    obtain ⟨a, x, b, rfl, hx, rfl, rfl⟩ := mapping_eq hv.symm
    cases hx
    refine ⟨a, _, b, rfl, fun hm => h1 ?_, h2⟩
    obtain ⟨e, he, h3⟩ := List.mem_map.1 hm
    rw [List.map_map]
    exact List.mem_map.2 ⟨e, he, by rw [← h3]; rfl⟩

theorem given_middle {a b : List (Str × Content)} {k : Str} {v : Content} : v ∈ given (a ++ (k, v) :: b) k :=
  mem_given.2 (List.mem_append_right _ List.mem_cons_self)

/-- What a field of a struct stands for. -/
theorem decode_holds {is : List Item} (hg : GoodFields is) {f : Field} (hf : .field f ∈ is) {fs : List (Str × Content)} {r : Record is}
    (h : decode is fs = .ok r) {w : Content} (hw : (f.key, w) ∈ fs) : ∃ x, f.codec.de w = .ok x :=
  (standsFor_given ((decode_ok hg _ _).1 h) hf).2.2 w (mem_given.2 hw)

theorem holds_field {is : List Item} (hg : GoodFields is) {f : Field} (hf : .field f ∈ is) (hk : f.key = k.toList)
    (h : Holds f.codec p S) : Holds (struct is) (.key k :: p) S := fun v r hr es ha => by
  obtain ⟨vs, rfl⟩ := at_map ha fun _ => nofun
  rw [struct_de_other (fun _ h => by cases h)] at hr
  obtain ⟨fs, h1, h2⟩ := Outcome.bind_eq_ok.1 hr
  cases entriesOf_iff.1 (Outcome.ofOption_eq_ok.1 h1)
  obtain ⟨a, w, b, rfl, -, ha⟩ := at_key ha rfl
  obtain ⟨x, hx⟩ := decode_holds hg hf h2 (w := w) (hk ▸ List.mem_append_right _ List.mem_cons_self)
  exact h _ x hx es ha

theorem holds_opt {is : List Item} (hg : GoodFields is) (hf : opt k c ∈ is) (h : Holds c p S) : Holds (struct is) (.key k :: p) S :=
  holds_field hg hf rfl (holds_option h)

theorem holds_many {β : Type} {c : Codec (List β)} {is : List Item} (hg : GoodFields is) (hf : many k c ∈ is) (h : Holds c p S) :
    Holds (struct is) (.key k :: p) S :=
  holds_field hg hf rfl h

theorem holds_req {is : List Item} (hg : GoodFields is) (hf : req k c ∈ is) (h : Holds c p S) : Holds (struct is) (.key k :: p) S :=
  holds_field hg hf rfl h

theorem mem_collect_last {a b : List (Str × Content)} {k : Str} {v : Content} (h : k ∉ b.map (·.1)) :
    (k, v) ∈ IndexMap.collect (a ++ (k, v) :: b) := by
  rw [← IndexMap.get_eq_some (IndexMap.ok_collect _), IndexMap.get_collect]
  have : b.reverse.find? (fun e => decide (e.1 = k)) = none := by
    rw [List.find?_eq_none]
    intro e he hk
    exact h (of_decide_eq_true hk ▸ List.mem_map_of_mem (List.mem_reverse.1 he))
  simp [List.find?_append, this]

theorem holds_resource {E : Env} [EnvOk E] {is : List Item} (hg : GoodFields is) {f : Field} (hf : .field f ∈ is)
    (hk : f.key = k.toList) (hext : k.toList ≠ "external".toList) (hname : k.toList ≠ "name".toList) (h : Holds f.codec p S) :
    Holds (Structs.resource E is) (.key k :: p) S := fun v r hr es ha => by
  obtain ⟨vs, rfl⟩ := at_map ha fun _ => nofun
  have hr : Resource.deserialize E.order (fun es => (decode is es).toOption) (.map vs) = some r := Outcome.ofOption_eq_ok.1 hr
  obtain ⟨m, h1, h2⟩ := Option.bind_eq_some_iff.1 hr
  obtain ⟨fs, h3, rfl⟩ := Option.map_eq_some_iff.1 h1
  obtain ⟨a, w, b, rfl, hb, ha⟩ := at_key ha (entriesOf_iff.1 (show entriesOf (.map vs) = some fs from h3))
  have hm := mem_collect_last (a := a) (v := w) hb
  cases fromMap_readAs (IndexMap.ok_collect _) h2 with
  | external h4 =>
    exact absurd (congrArg Prod.fst (List.mem_singleton.1 (h4.mem_iff.1 hm))) hext
  | named h4 =>
    rcases List.mem_cons.1 (h4.mem_iff.1 hm) with h5 | h5
    · exact absurd (congrArg Prod.fst h5) hext
    · exact absurd (congrArg Prod.fst (List.mem_singleton.1 h5)) hname
  | compose h4 h5 =>
    obtain ⟨x, hx⟩ := decode_holds hg hf (toOption_some.1 h5) (w := w)
      (by rw [hk]; exact (EnvOk.order (E := E) _).mem_iff.2 (List.mem_filter.2 ⟨hm, decide_eq_true hext⟩))
    exact h _ x hx es ha

theorem holds_envFile : Holds Structs.envFile [.item] (ReadBy (struct Structs.envFileConfig)) := fun v x hx es ha => by
  cases ha with
  | item hv ha =>
    obtain ⟨l, hl, -⟩ := Outcome.map_eq_ok.1 hx
    exact holds_list (holds_long holds_here fun _ => nofun) _ l hl es (.item hv ha)

theorem holds_networks {E : Env} {is : List Item} (hg : GoodFields is) (hf : Structs.networkConfig E ∈ is)
    (h : Holds (Structs.networks E) p S) : Holds (struct is) (.key "networks" :: p) S := fun v r hr es ha => by
  obtain ⟨vs, rfl⟩ := at_map ha fun _ => nofun
  rw [struct_de_other (fun _ h => by cases h)] at hr
  obtain ⟨fs, h1, h2⟩ := Outcome.bind_eq_ok.1 hr
  cases entriesOf_iff.1 (Outcome.ofOption_eq_ok.1 h1)
  obtain ⟨a, w, b, rfl, -, ha⟩ := at_key ha rfl
  obtain ⟨x, hx⟩ := standsFor_flat ((decode_ok hg _ _).1 h2) hf
  have hw : w ≠ .unit := by rintro rfl; cases ha
  have hm : w ∈ valuesOf "networks".toList
      ((a ++ ("networks".toList, w) :: b).filter fun e => e.1 ∈ ["network_mode".toList, "networks".toList]) := by
    refine mem_given.2 (List.mem_filter.2 ⟨List.mem_append_right _ List.mem_cons_self, decide_eq_true ?_⟩)
    exact List.mem_cons_of_mem _ List.mem_cons_self
  replace hx := Outcome.ofOption_eq_ok.1 hx
  have hn : ∃ o, flatOption (fun c => ((Structs.networks E).de c).toOption) "networks".toList
      ((a ++ ("networks".toList, w) :: b).filter fun e => e.1 ∈ ["network_mode".toList, "networks".toList]) = some o := by
    unfold NetworkConfigOf.optionEntries at hx
    split at hx
    · exact ⟨_, ‹_›⟩
    · exact ⟨_, ‹_›⟩
    · exact ⟨_, ‹_›⟩
    · cases hx
  obtain ⟨_ | y, hn⟩ := hn
  · rcases flatOption_none.1 hn with h3 | h3 <;> rw [h3] at hm
    · cases hm
    · exact absurd (List.mem_singleton.1 hm) hw
  · obtain ⟨u, ⟨h3, -⟩, h4⟩ := flatOption_some.1 hn
    rw [h3] at hm
    cases List.mem_singleton.1 hm
    exact h _ y (toOption_some.1 h4) es ha

/-- A mount is read as the struct of its type. -/
theorem mount_decoded {es : List (Str × Content)} {m : Structs.MountOf} (h : Structs.mountRead es = .ok m) :
    ∃ t ∈ mountTypes, given es "type".toList = [.str t.1.toList] ∧
      ∃ r, decode t.2 (es.filter fun e => e.1 ≠ "type".toList) = .ok r := by
  unfold Structs.mountRead at h
  split at h
  · rename_i k' tag hk'
    have hg : given es Structs.tagKey = [.str tag] := congrArg (List.map Prod.snd) hk'
    dsimp only at h
    split at h
    · rename_i ht; subst ht; obtain ⟨r, h1, -⟩ := Outcome.map_eq_ok.1 h; exact ⟨("volume", Structs.mountVolume), nth 0 rfl, hg, r, h1⟩
    split at h
    · rename_i ht; subst ht; obtain ⟨r, h1, -⟩ := Outcome.map_eq_ok.1 h; exact ⟨("bind", Structs.mountBind), nth 1 rfl, hg, r, h1⟩
    split at h
    · rename_i ht; subst ht; obtain ⟨r, h1, -⟩ := Outcome.map_eq_ok.1 h; exact ⟨("tmpfs", Structs.mountTmpfs), nth 2 rfl, hg, r, h1⟩
    split at h
    · rename_i ht; subst ht; obtain ⟨r, h1, -⟩ := Outcome.map_eq_ok.1 h; exact ⟨("npipe", Structs.mountNamedPipe), nth 3 rfl, hg, r, h1⟩
    split at h
    · rename_i ht; subst ht; obtain ⟨r, h1, -⟩ := Outcome.map_eq_ok.1 h; exact ⟨("cluster", Structs.mountCluster), nth 4 rfl, hg, r, h1⟩
    cases h
  · cases h

/-- A key of the first part of mounts belongs to the struct that is read. -/
theorem mount_own {is : List Item} (hg : GoodFields is) (hf : Codecs.nested Structs.common ∈ is) {es : List (Str × Content)}
    {r : Record is} (h : decode is es = .ok r) {k : Str} {v : Content} (hk : k ∈ headKeys) (hm : (k, v) ∈ es) : k ∈ ownKeys is := by
  obtain ⟨c, hc⟩ := standsFor_flat ((decode_ok hg _ _).1 h) hf
  by_contra ho
  rcases common_keys (c := c) hc (List.mem_filter.2 ⟨hm, decide_eq_true ho⟩) with h1 | h1
  · exact (head_not_common hk).1 h1
  · exact (head_not_common hk).2 h1

theorem mountTypes_good : ∀ t ∈ mountTypes, GoodFields t.2 ∧ Codecs.nested Structs.common ∈ t.2 := by
  unfold mountTypes
  refine List.forall_mem_cons.2 ⟨⟨table_good, nth 2 rfl⟩, List.forall_mem_cons.2 ⟨⟨table_good, nth 2 rfl⟩,
    List.forall_mem_cons.2 ⟨⟨table_good, nth 1 rfl⟩, List.forall_mem_cons.2 ⟨⟨table_good, nth 1 rfl⟩,
    List.forall_mem_cons.2 ⟨⟨table_good, nth 1 rfl⟩, fun _ h => by cases h⟩⟩⟩⟩⟩

/-- The key of the options belongs to one type of mounts only. -/
theorem holds_mount (hk : k.toList ∈ headKeys) (h : ∀ t ∈ mountTypes, k.toList ∈ ownKeys t.2 →
      ∃ f : Field, .field f ∈ t.2 ∧ f.key = k.toList ∧ Holds f.codec p S) : Holds Structs.mount (.key k :: p) S :=
  fun v m hm es ha => by
    obtain ⟨fs, h1, h2⟩ := Outcome.bind_eq_ok.1 hm
    cases entriesOf_iff.1 (Outcome.ofOption_eq_ok.1 h1)
    obtain ⟨a, w, b, rfl, -, ha⟩ := at_key ha rfl
    obtain ⟨t, h3, -, r, h4⟩ := mount_decoded h2
    obtain ⟨hg, hn⟩ := mountTypes_good t h3
    have hw : (k.toList, w) ∈ (a ++ (k.toList, w) :: b).filter fun e => e.1 ≠ "type".toList :=
      List.mem_filter.2 ⟨List.mem_append_right _ List.mem_cons_self, decide_eq_true fun h => by
        replace h : k.toList = "type".toList := h
        rw [h] at hk; revert hk; decide⟩
    obtain ⟨f, h5, h6, h7⟩ := h t h3 (mount_own hg hn h4 hk hw)
    obtain ⟨x, hx⟩ := decode_holds hg h5 h4 (w := w) (by rw [h6]; exact hw)
    exact h7 _ x hx es ha

theorem holds_mount_volume : Holds Structs.mount [.key "volume"] (ReadBy (struct Structs.volumeOptions)) := by
  refine holds_mount (by decide) ?_
  unfold mountTypes
  refine List.forall_mem_cons.2 ⟨fun _ => ⟨_, nth 1 (show _ = some (opt "volume" (struct Structs.volumeOptions)) from rfl), rfl, holds_option holds_here⟩, ?_⟩
  repeat refine List.forall_mem_cons.2 ⟨fun h => absurd h (by decide +kernel), ?_⟩
  exact fun _ h => by cases h

theorem holds_mount_bind : Holds Structs.mount [.key "bind"] (ReadBy (struct Structs.bindOptions)) := by
  refine holds_mount (by decide) ?_
  unfold mountTypes
  refine List.forall_mem_cons.2 ⟨fun h => absurd h (by decide +kernel), ?_⟩
  refine List.forall_mem_cons.2 ⟨fun _ => ⟨_, nth 1 (show _ = some (opt "bind" (struct Structs.bindOptions)) from rfl), rfl, holds_option holds_here⟩, ?_⟩
  repeat refine List.forall_mem_cons.2 ⟨fun h => absurd h (by decide +kernel), ?_⟩
  exact fun _ h => by cases h

theorem holds_mount_tmpfs : Holds Structs.mount [.key "tmpfs"] (ReadBy (struct Structs.tmpfsOptions)) := by
  refine holds_mount (by decide) ?_
  unfold mountTypes
  refine List.forall_mem_cons.2 ⟨fun h => absurd h (by decide +kernel), ?_⟩
  refine List.forall_mem_cons.2 ⟨fun h => absurd h (by decide +kernel), ?_⟩
  refine List.forall_mem_cons.2 ⟨fun _ => ⟨_, nth 0 (show _ = some (opt "tmpfs" (struct Structs.tmpfsOptions)) from rfl), rfl, holds_option holds_here⟩, ?_⟩
  repeat refine List.forall_mem_cons.2 ⟨fun h => absurd h (by decide +kernel), ?_⟩
  exact fun _ h => by cases h

end

/-- What is read at all places of a file. -/
theorem places_hold (E : Env) [EnvOk E] : ∀ row ∈ places E, Holds (struct (Structs.compose E)) row.1 row.2 := by
  unfold places inDeploy inService
  refine List.forall_mem_cons.2 ⟨holds_here, ?_⟩
  refine List.forall_mem_cons.2 ⟨holds_many table_good (nth 2 rfl) (holds_list (holds_long holds_here fun _ => nofun)), ?_⟩
  refine List.forall_mem_cons.2 ⟨holds_many table_good (nth 4 rfl) (holds_map (holds_option holds_here)), ?_⟩
  refine List.forall_mem_cons.2 ⟨holds_many table_good (nth 4 rfl) (holds_map (holds_option (holds_resource table_good (nth 4 rfl) rfl (by decide) (by decide) (holds_option holds_here)))), ?_⟩
  refine List.forall_mem_cons.2 ⟨holds_many table_good (nth 4 rfl) (holds_map (holds_option (holds_resource table_good (nth 4 rfl) rfl (by decide) (by decide) (holds_option (holds_many table_good (nth 1 rfl) (holds_list holds_here)))))), ?_⟩
  refine List.forall_mem_cons.2 ⟨holds_many table_good (nth 5 rfl) (holds_map (holds_option holds_here)), ?_⟩
  refine List.forall_mem_cons.2 ⟨holds_many table_good (nth 6 rfl) (holds_map holds_here), ?_⟩
  refine List.forall_mem_cons.2 ⟨holds_many table_good (nth 7 rfl) (holds_map holds_here), ?_⟩
  refine List.forall_mem_cons.2 ⟨holds_req table_good (nth 3 rfl) (holds_map holds_here), ?_⟩
  refine List.forall_mem_cons.2 ⟨holds_req table_good (nth 3 rfl) (holds_map (holds_opt table_good (nth 1 rfl) (holds_long holds_here fun _ => nofun))), ?_⟩
  refine List.forall_mem_cons.2 ⟨holds_req table_good (nth 3 rfl) (holds_map (holds_opt table_good (nth 1 rfl) (holds_long (holds_many table_good (nth 17 rfl) (holds_list (holds_long holds_here fun _ => nofun))) fun _ => nofun))), ?_⟩
  refine List.forall_mem_cons.2 ⟨holds_req table_good (nth 3 rfl) (holds_map (holds_opt table_good (nth 1 rfl) (holds_long (holds_many table_good (nth 19 rfl) (holds_map (holds_long holds_here fun _ => nofun))) fun _ => nofun))), ?_⟩
  refine List.forall_mem_cons.2 ⟨holds_req table_good (nth 3 rfl) (holds_map (holds_opt table_good (nth 2 rfl) holds_here)), ?_⟩
  refine List.forall_mem_cons.2 ⟨holds_req table_good (nth 3 rfl) (holds_map (holds_opt table_good (nth 2 rfl) (holds_many table_good (nth 0 rfl) (holds_list holds_here)))), ?_⟩
  refine List.forall_mem_cons.2 ⟨holds_req table_good (nth 3 rfl) (holds_map (holds_opt table_good (nth 2 rfl) (holds_many table_good (nth 1 rfl) (holds_list holds_here)))), ?_⟩
  refine List.forall_mem_cons.2 ⟨holds_req table_good (nth 3 rfl) (holds_map (holds_opt table_good (nth 2 rfl) (holds_many table_good (nth 2 rfl) (holds_list holds_here)))), ?_⟩
  refine List.forall_mem_cons.2 ⟨holds_req table_good (nth 3 rfl) (holds_map (holds_opt table_good (nth 2 rfl) (holds_many table_good (nth 3 rfl) (holds_list holds_here)))), ?_⟩
  refine List.forall_mem_cons.2 ⟨holds_req table_good (nth 3 rfl) (holds_map (holds_opt table_good (nth 2 rfl) (holds_many table_good (nth 5 rfl) (holds_list holds_here)))), ?_⟩
  refine List.forall_mem_cons.2 ⟨holds_req table_good (nth 3 rfl) (holds_map (holds_many table_good (nth 17 rfl) (holds_list (holds_long holds_here fun _ => nofun)))), ?_⟩
  refine List.forall_mem_cons.2 ⟨holds_req table_good (nth 3 rfl) (holds_map (holds_opt table_good (nth 19 rfl) holds_here)), ?_⟩
  refine List.forall_mem_cons.2 ⟨holds_req table_good (nth 3 rfl) (holds_map (holds_field table_good (nth 20 rfl) rfl (fun v x hx es ha => holds_long (holds_map holds_here) (fun _ => nofun) v x hx es ha))), ?_⟩
  refine List.forall_mem_cons.2 ⟨holds_req table_good (nth 3 rfl) (holds_map (holds_opt table_good (nth 21 rfl) holds_here)), ?_⟩
  refine List.forall_mem_cons.2 ⟨holds_req table_good (nth 3 rfl) (holds_map (holds_opt table_good (nth 21 rfl) (holds_opt table_good (nth 3 rfl) holds_here))), ?_⟩
  refine List.forall_mem_cons.2 ⟨holds_req table_good (nth 3 rfl) (holds_map (holds_opt table_good (nth 21 rfl) (holds_opt table_good (nth 3 rfl) (holds_many table_good (nth 1 rfl) (holds_list holds_here))))), ?_⟩
  refine List.forall_mem_cons.2 ⟨holds_req table_good (nth 3 rfl) (holds_map (holds_opt table_good (nth 21 rfl) (holds_opt table_good (nth 5 rfl) holds_here))), ?_⟩
  refine List.forall_mem_cons.2 ⟨holds_req table_good (nth 3 rfl) (holds_map (holds_opt table_good (nth 21 rfl) (holds_opt table_good (nth 5 rfl) (holds_opt table_good (nth 0 rfl) holds_here)))), ?_⟩
  refine List.forall_mem_cons.2 ⟨holds_req table_good (nth 3 rfl) (holds_map (holds_opt table_good (nth 21 rfl) (holds_opt table_good (nth 5 rfl) (holds_opt table_good (nth 1 rfl) holds_here)))), ?_⟩
  refine List.forall_mem_cons.2 ⟨holds_req table_good (nth 3 rfl) (holds_map (holds_opt table_good (nth 21 rfl) (holds_opt table_good (nth 5 rfl) (holds_opt table_good (nth 1 rfl) (holds_many table_good (nth 2 rfl) (holds_list holds_here)))))), ?_⟩
  refine List.forall_mem_cons.2 ⟨holds_req table_good (nth 3 rfl) (holds_map (holds_opt table_good (nth 21 rfl) (holds_opt table_good (nth 5 rfl) (holds_opt table_good (nth 1 rfl) (holds_many table_good (nth 3 rfl) (holds_list holds_here)))))), ?_⟩
  refine List.forall_mem_cons.2 ⟨holds_req table_good (nth 3 rfl) (holds_map (holds_opt table_good (nth 21 rfl) (holds_opt table_good (nth 5 rfl) (holds_opt table_good (nth 1 rfl) (holds_many table_good (nth 3 rfl) (holds_list (holds_opt table_good (nth 0 rfl) holds_here))))))), ?_⟩
  refine List.forall_mem_cons.2 ⟨holds_req table_good (nth 3 rfl) (holds_map (holds_opt table_good (nth 21 rfl) (holds_opt table_good (nth 6 rfl) holds_here))), ?_⟩
  refine List.forall_mem_cons.2 ⟨holds_req table_good (nth 3 rfl) (holds_map (holds_opt table_good (nth 21 rfl) (holds_opt table_good (nth 7 rfl) holds_here))), ?_⟩
  refine List.forall_mem_cons.2 ⟨holds_req table_good (nth 3 rfl) (holds_map (holds_opt table_good (nth 21 rfl) (holds_opt table_good (nth 8 rfl) holds_here))), ?_⟩
  refine List.forall_mem_cons.2 ⟨holds_req table_good (nth 3 rfl) (holds_map (holds_opt table_good (nth 22 rfl) holds_here)), ?_⟩
  refine List.forall_mem_cons.2 ⟨holds_req table_good (nth 3 rfl) (holds_map (holds_opt table_good (nth 22 rfl) (holds_many table_good (nth 0 rfl) (holds_list holds_here)))), ?_⟩
  refine List.forall_mem_cons.2 ⟨holds_req table_good (nth 3 rfl) (holds_map (holds_opt table_good (nth 30 rfl) holds_envFile)), ?_⟩
  refine List.forall_mem_cons.2 ⟨holds_req table_good (nth 3 rfl) (holds_map (holds_opt table_good (nth 33 rfl) holds_here)), ?_⟩
  refine List.forall_mem_cons.2 ⟨holds_req table_good (nth 3 rfl) (holds_map (holds_opt table_good (nth 38 rfl) holds_here)), ?_⟩
  refine List.forall_mem_cons.2 ⟨holds_req table_good (nth 3 rfl) (holds_map (holds_opt table_good (nth 47 rfl) holds_here)), ?_⟩
  refine List.forall_mem_cons.2 ⟨holds_req table_good (nth 3 rfl) (holds_map (holds_networks table_good (nth 48 rfl) (holds_long (holds_map (holds_option holds_here)) fun _ => nofun))), ?_⟩
  refine List.forall_mem_cons.2 ⟨holds_req table_good (nth 3 rfl) (holds_map (holds_many table_good (nth 59 rfl) (holds_set (holds_long holds_here fun _ => nofun)))), ?_⟩
  refine List.forall_mem_cons.2 ⟨holds_req table_good (nth 3 rfl) (holds_map (holds_many table_good (nth 67 rfl) (holds_list (holds_long holds_here fun _ => nofun)))), ?_⟩
  refine List.forall_mem_cons.2 ⟨holds_req table_good (nth 3 rfl) (holds_map (holds_many table_good (nth 77 rfl) (holds_map (holds_long holds_here fun _ => nofun)))), ?_⟩
  refine List.forall_mem_cons.2 ⟨holds_req table_good (nth 3 rfl) (holds_map (holds_many table_good (nth 80 rfl) (holds_set (holds_long holds_here fun _ => nofun)))), ?_⟩
  refine List.forall_mem_cons.2 ⟨holds_req table_good (nth 3 rfl) (holds_map (holds_many table_good (nth 80 rfl) (holds_set (holds_long holds_mount_volume fun _ => nofun)))), ?_⟩
  refine List.forall_mem_cons.2 ⟨holds_req table_good (nth 3 rfl) (holds_map (holds_many table_good (nth 80 rfl) (holds_set (holds_long holds_mount_bind fun _ => nofun)))), ?_⟩
  refine List.forall_mem_cons.2 ⟨holds_req table_good (nth 3 rfl) (holds_map (holds_many table_good (nth 80 rfl) (holds_set (holds_long holds_mount_tmpfs fun _ => nofun)))), ?_⟩
  exact fun _ h => by cases h

end Proofs
