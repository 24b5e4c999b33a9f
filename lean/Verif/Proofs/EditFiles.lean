import Verif.Proofs.EditItems
import Verif.Proofs.StructLaws

/- Reading mounts, resources, services, and files from documents in which one setting has been edited. -/

namespace Proofs
open Rust Compose Compose.Derive Compose.Codecs Spec
open Props hiding mapping entriesOf_mapping

/-! ### Mounts -/

/-- Edits of anything but the type of a mount. -/
theorem mount_others {k : Str} {p : List Str} {es fs : List (Str × Content)} (h : EditedEntry k p es fs) (hk : k ≠ Structs.tagKey)
    {m m' : Structs.MountOf} (h2 : Structs.mountRead es = .ok m) (h4 : Structs.mountRead fs = .ok m') :
    DifferEntry k p (Structs.mountWrite m) (Structs.mountWrite m') := by
  have ht := h.filter_same (q := fun k => decide (k = Structs.tagKey)) (decide_eq_false hk)
  have hr : EditedEntry k p (es.filter fun e => e.1 ≠ Structs.tagKey) (fs.filter fun e => e.1 ≠ Structs.tagKey) := by
    have := h.filter (q := fun k => decide (k ≠ Structs.tagKey)) (decide_eq_true hk)
    simpa using this
  have hd : ∀ {is : List Item} {own : List Str} [Keys is own] [DistinctKeys own] [ItemsEverywhere is] (f : Record is → Structs.MountOf)
      (pre : Str × Content), (∀ r, Structs.mountWrite (f r) = pre :: write is r) → ∀ m m',
      (decode is (es.filter fun e => e.1 ≠ Structs.tagKey)).map f = .ok m →
      (decode is (fs.filter fun e => e.1 ≠ Structs.tagKey)).map f = .ok m' →
        DifferEntry k p (Structs.mountWrite m) (Structs.mountWrite m') := by
    intro is own _ _ hi f pre hf m m' hm hm'
    obtain ⟨r, h1, rfl⟩ := Outcome.map_eq_ok.1 hm
    obtain ⟨r', h2, rfl⟩ := Outcome.map_eq_ok.1 hm'
    rw [hf, hf]
    exact (decode_edited (P := fun _ => True) table_good trivial (fun i hi' => (hi.all i hi').all) hr h1 h2).append_left [pre]
  unfold Structs.mountRead at h2 h4
  rw [← ht] at h4
  split at h2
  · rename_i k' tag hk'
    simp only [hk'] at h4
    dsimp only at h2
    split at h2
    · rw [if_pos (by assumption)] at h4; exact hd _ _ (fun _ => rfl) m m' h2 h4
    rw [if_neg (by assumption)] at h4
    split at h2
    · rw [if_pos (by assumption)] at h4; exact hd _ _ (fun _ => rfl) m m' h2 h4
    rw [if_neg (by assumption)] at h4
    split at h2
    · rw [if_pos (by assumption)] at h4; exact hd _ _ (fun _ => rfl) m m' h2 h4
    rw [if_neg (by assumption)] at h4
    split at h2
    · rw [if_pos (by assumption)] at h4; exact hd _ _ (fun _ => rfl) m m' h2 h4
    rw [if_neg (by assumption)] at h4
    split at h2
    · rw [if_pos (by assumption)] at h4; exact hd _ _ (fun _ => rfl) m m' h2 h4
    cases h2
  · cases h2

/-- The keys that only some types of mounts have. -/
def headKeys : List Str := ["source".toList, "volume".toList, "bind".toList, "tmpfs".toList]

/-- Those of a type of mount. -/
def headOf (tag : Str) : List Str :=
  if tag = "volume".toList then ["source".toList, "volume".toList]
  else if tag = "bind".toList then ["source".toList, "bind".toList]
  else if tag = "tmpfs".toList then ["tmpfs".toList]
  else ["source".toList]

/-- The source of a mount. -/
def sourceOf (es : List (Str × Content)) : List (Str × Content) :=
  match given es "source".toList with
  | [.str s] => [("source".toList, .str s)]
  | _ => []

/-- How the entries but the type are read and written: the source and what all types have are written the same way for all
of them, and entries of other types are not read. -/
structure HeadRead (own : List Str) (es ws : List (Str × Content)) : Prop where
  written : ∃ c o, decode Structs.common (es.filter fun e => e.1 ∉ headKeys) = .ok c ∧ ws = sourceOf es ++ (o ++ write Structs.common c) ∧
    ((∀ k ∈ own, k ≠ "source".toList → given es k = []) → o = [])
  others : ∀ k ∈ headKeys, k ∉ own → given es k = []

theorem forall₂_left {α β : Type} {R : α → β → Prop} {l : List α} {l' : List β} (h : List.Forall₂ R l l') {x : α} (hx : x ∈ l) :
    ∃ y, R x y := by
  induction h with
  | nil => cases hx
  | cons h1 _ ih =>
    rcases List.mem_cons.1 hx with rfl | hx
    · exact ⟨_, h1⟩
    · exact ih hx

theorem common_keys {es : List (Str × Content)} {c : Record Structs.common} (h : decode Structs.common es = .ok c) {e : Str × Content}
    (he : e ∈ es) : e.1 ∈ ["target".toList, "read_only".toList, "consistency".toList] ∨ ExtensionKey e.1 := by
  by_cases hk : e.1 ∈ ["target".toList, "read_only".toList, "consistency".toList]
  · exact .inl hk
  right
  obtain ⟨a, b, c, d, ⟨⟩⟩ := c
  obtain ⟨-, -, -, h, -⟩ := (decode_ok table_good _ _).1 h
  obtain ⟨l, h1, -⟩ := Outcome.map_eq_ok.1 h
  have h2 : e ∈ es.filter fun e => e.1 ∉ ["target".toList, "read_only".toList, "consistency".toList] :=
    List.mem_filter.2 ⟨he, decide_eq_true hk⟩
  have h3 := readEntries_forall₂.1 h1
  obtain ⟨y, h4⟩ := forall₂_left h3 h2
  exact ((DenotesKey.iff (k := extensionKey) (K := ExtensionKey) _ _).1 h4.1).1

theorem head_not_common {k : Str} (hk : k ∈ headKeys) :
    k ∉ ["target".toList, "read_only".toList, "consistency".toList] ∧ ¬ ExtensionKey k := by
  simp only [headKeys, List.mem_cons, List.not_mem_nil, or_false] at hk
  rcases hk with rfl | rfl | rfl | rfl <;> refine ⟨by decide, ?_⟩ <;> rintro ⟨⟨t, h⟩, -⟩ <;>
    exact absurd (Option.some.inj (congrArg List.head? h)) (by decide)

theorem common_rest {own : List Str} (hown : ∀ k ∈ own, k ∈ headKeys) {es : List (Str × Content)} {c : Record Structs.common}
    (h : decode Structs.common (es.filter fun e => e.1 ∉ own) = .ok c) :
    decode Structs.common (es.filter fun e => e.1 ∉ headKeys) = .ok c ∧ ∀ k ∈ headKeys, k ∉ own → given es k = [] := by
  have hno : ∀ e ∈ es, e.1 ∈ headKeys → e.1 ∈ own := fun e he hk => by
    by_contra ho
    rcases common_keys h (List.mem_filter.2 ⟨he, decide_eq_true ho⟩) with h1 | h1
    · exact (head_not_common hk).1 h1
    · exact (head_not_common hk).2 h1
  refine ⟨?_, fun k hk ho => ?_⟩
  · rw [← h]
    congr 1
    refine List.filter_congr fun e he => ?_
    exact decide_eq_decide.2 (not_congr ⟨hno e he, hown _⟩)
  · refine given_fresh fun hm => ?_
    obtain ⟨e, he, rfl⟩ := List.mem_map.1 hm
    exact ho (hno e he hk)

/-- What is written for a field. -/
theorem source_written {f : Field} (hf : f.key = "source".toList) (hw : ∀ v x, f.codec.de v = .ok x →
      (∃ s, v = .str s ∧ f.skip x = false ∧ f.codec.ser x = .str s) ∨ ((∀ s, v ≠ .str s) ∧ f.skip x = true))
    (hd : ∀ x, f.default = some x → f.skip x = true) {es : List (Str × Content)} {x : f.Ty}
    (h : (∃ v, given es f.key = [v] ∧ f.codec.de v = .ok x) ∨ (given es f.key = [] ∧ f.default = some x)) :
    (if f.skip x then [] else [(f.key, f.codec.ser x)]) = sourceOf es := by
  unfold sourceOf
  rw [hf] at h ⊢
  rcases h with ⟨v, h1, h2⟩ | ⟨h1, h2⟩
  · rw [h1]
    rcases hw v x h2 with ⟨s, rfl, h3, h4⟩ | ⟨h3, h4⟩
    · rw [h3, h4]; rfl
    · rw [if_pos h4]
      split
      · rename_i s hs; cases hs; exact absurd rfl (h3 s)
      · rfl
  · rw [h1, if_pos (hd x h2)]

theorem written_identifier {v : Content} {x : Str} (h : identifier.de v = .ok x) : v = .str x ∧ identifier.ser x = .str x := by
  obtain ⟨rfl, -⟩ := (Denotes.iff (c := identifier) (m := Meaning.valid Identifier) _ _).1 h
  exact ⟨rfl, rfl⟩

theorem written_hostPath {v : Content} {x : Str} (h : hostPath.de v = .ok x) : v = .str x ∧ hostPath.ser x = .str x := by
  obtain ⟨rfl, -⟩ := (Denotes.iff (c := hostPath) (m := Meaning.valid HostPath) _ _).1 h
  exact ⟨rfl, rfl⟩

theorem written_str {v : Content} {x : Str} (h : Codecs.str.de v = .ok x) : v = .str x ∧ Codecs.str.ser x = .str x := by
  cases v with
  | str s => cases h; exact ⟨rfl, rfl⟩
  | _ => cases h

theorem option_written {c : Codec Str} (hc : ∀ v x, c.de v = .ok x → v = .str x ∧ c.ser x = .str x) {v : Content} {x : Option Str}
    (h : (option c).de v = .ok x) :
    (∃ s, v = .str s ∧ Option.isNone x = false ∧ (option c).ser x = .str s) ∨ ((∀ s, v ≠ .str s) ∧ Option.isNone x = true) := by
  by_cases hv : v = .unit
  · subst hv; cases h; exact .inr ⟨nofun, rfl⟩
  · rw [option_de hv] at h
    obtain ⟨y, h1, rfl⟩ := Outcome.map_eq_ok.1 h
    obtain ⟨rfl, h2⟩ := hc v y h1
    exact .inl ⟨y, rfl, rfl, h2⟩

theorem head_of {own : List Str} (hown : ∀ k ∈ own, k ∈ headKeys) {es o : List (Str × Content)} {c : Record Structs.common}
    (h : decode Structs.common (es.filter fun e => e.1 ∉ own) = .ok c)
    (ho : (∀ k ∈ own, k ≠ "source".toList → given es k = []) → o = []) :
    HeadRead own es (sourceOf es ++ (o ++ write Structs.common c)) :=
  ⟨⟨c, o, (common_rest hown h).1, rfl, ho⟩, (common_rest hown h).2⟩

theorem field_omitted {f : Field} (hd : ∀ x, f.default = some x → f.skip x = true) {es : List (Str × Content)} {x : f.Ty}
    (h : (∃ v, given es f.key = [v] ∧ f.codec.de v = .ok x) ∨ (given es f.key = [] ∧ f.default = some x)) (hg : given es f.key = []) :
    (if f.skip x then [] else [(f.key, f.codec.ser x)]) = [] := by
  rcases h with ⟨v, h1, _⟩ | ⟨_, h2⟩
  · rw [hg] at h1; cases h1
  · rw [if_pos (hd x h2)]

theorem volume_head {es : List (Str × Content)} {r : Record Structs.mountVolume} (h : decode Structs.mountVolume es = .ok r) :
    HeadRead (headOf "volume".toList) es (write Structs.mountVolume r) := by
  obtain ⟨s, o, c, ⟨⟩⟩ := r
  obtain ⟨h1, h2, h3, -⟩ := (decode_ok table_good _ _).1 h
  have hs := source_written rfl (fun v x => option_written fun v x => written_identifier) (fun x hx => by cases hx; rfl) h1
  have := head_of (own := ["source".toList, "volume".toList]) (by decide) h3 fun hg => field_omitted (fun x hx => by cases hx; rfl) h2
      (hg _ (by decide) (by decide))
  rw [← hs, ← List.append_nil (write Structs.common c)] at this
  exact this

theorem bind_head {es : List (Str × Content)} {r : Record Structs.mountBind} (h : decode Structs.mountBind es = .ok r) :
    HeadRead (headOf "bind".toList) es (write Structs.mountBind r) := by
  obtain ⟨s, o, c, ⟨⟩⟩ := r
  obtain ⟨h1, h2, h3, -⟩ := (decode_ok table_good _ _).1 h
  have hs := source_written rfl (fun v x h => .inl ⟨x, (written_hostPath h).1, rfl, rfl⟩) (fun x hx => by cases hx) h1
  have := head_of (own := ["source".toList, "bind".toList]) (by decide) h3 fun hg => field_omitted (fun x hx => by cases hx; rfl) h2
      (hg _ (by decide) (by decide))
  rw [← hs, ← List.append_nil (write Structs.common c)] at this
  exact this

theorem tmpfs_head {es : List (Str × Content)} {r : Record Structs.mountTmpfs} (h : decode Structs.mountTmpfs es = .ok r) :
    HeadRead (headOf "tmpfs".toList) es (write Structs.mountTmpfs r) := by
  obtain ⟨o, c, ⟨⟩⟩ := r
  obtain ⟨h2, h3, -⟩ := (decode_ok table_good _ _).1 h
  have := head_of (own := ["tmpfs".toList]) (by decide) h3 fun hg => field_omitted (fun x hx => by cases hx; rfl) h2
      (hg _ (by decide) (by decide))
  have hs : sourceOf es = [] := by
    unfold sourceOf
    rw [this.others "source".toList (by decide) (by decide)]
  rw [hs, ← List.append_nil (write Structs.common c)] at this
  exact this

theorem namedPipe_head {es : List (Str × Content)} {r : Record Structs.mountNamedPipe} (h : decode Structs.mountNamedPipe es = .ok r) :
    HeadRead (headOf "npipe".toList) es (write Structs.mountNamedPipe r) := by
  obtain ⟨s, c, ⟨⟩⟩ := r
  obtain ⟨h1, h3, -⟩ := (decode_ok table_good _ _).1 h
  have hs := source_written rfl (fun v x h => .inl ⟨x, (written_hostPath h).1, rfl, rfl⟩) (fun x hx => by cases hx) h1
  have := head_of (own := ["source".toList]) (o := []) (by decide) h3 fun _ => rfl
  rw [← hs, ← List.append_nil (write Structs.common c)] at this
  exact this

theorem cluster_head {es : List (Str × Content)} {r : Record Structs.mountCluster} (h : decode Structs.mountCluster es = .ok r) :
    HeadRead (headOf "cluster".toList) es (write Structs.mountCluster r) := by
  obtain ⟨s, c, ⟨⟩⟩ := r
  obtain ⟨h1, h3, -⟩ := (decode_ok table_good _ _).1 h
  have hs := source_written rfl (fun v x h => .inl ⟨x, (written_str h).1, rfl, rfl⟩) (fun x hx => by cases hx) h1
  have := head_of (own := ["source".toList]) (o := []) (by decide) h3 fun _ => rfl
  rw [← hs, ← List.append_nil (write Structs.common c)] at this
  exact this

/-- The types of mounts. -/
def mountTags : List Str := ["volume".toList, "bind".toList, "tmpfs".toList, "npipe".toList, "cluster".toList]

theorem head_apart : ∀ s ∈ mountTags, ∀ t ∈ mountTags, s ≠ t → ∀ k ∈ headOf s, k ≠ "source".toList → k ∉ headOf t := by decide +kernel

theorem head_known : ∀ s ∈ mountTags, ∀ k ∈ headOf s, k ∈ headKeys := by decide +kernel

theorem mount_head {es : List (Str × Content)} {m : Structs.MountOf} (h : Structs.mountRead es = .ok m) :
    ∃ tag ∈ mountTags, given es Structs.tagKey = [.str tag] ∧ ∃ ws, Structs.mountWrite m = (Structs.tagKey, .str tag) :: ws ∧
      HeadRead (headOf tag) (es.filter fun e => e.1 ≠ Structs.tagKey) ws := by
  unfold Structs.mountRead at h
  split at h
  · rename_i k' tag hk'
    have hg : given es Structs.tagKey = [.str tag] := congrArg (List.map Prod.snd) hk'
    dsimp only at h
    split at h
    · rename_i ht; subst ht; obtain ⟨r, h1, rfl⟩ := Outcome.map_eq_ok.1 h; exact ⟨_, by decide, hg, _, rfl, volume_head h1⟩
    split at h
    · rename_i ht; subst ht; obtain ⟨r, h1, rfl⟩ := Outcome.map_eq_ok.1 h; exact ⟨_, by decide, hg, _, rfl, bind_head h1⟩
    split at h
    · rename_i ht; subst ht; obtain ⟨r, h1, rfl⟩ := Outcome.map_eq_ok.1 h; exact ⟨_, by decide, hg, _, rfl, tmpfs_head h1⟩
    split at h
    · rename_i ht; subst ht; obtain ⟨r, h1, rfl⟩ := Outcome.map_eq_ok.1 h; exact ⟨_, by decide, hg, _, rfl, namedPipe_head h1⟩
    split at h
    · rename_i ht; subst ht; obtain ⟨r, h1, rfl⟩ := Outcome.map_eq_ok.1 h; exact ⟨_, by decide, hg, _, rfl, cluster_head h1⟩
    cases h
  · cases h

theorem tag_entries {es : List (Str × Content)} {k : Str} {v : Content} (h : given es k = [v]) :
    es.filter (fun e => e.1 = k) = [(k, v)] := by
  unfold given at h
  obtain ⟨e, h1, h2⟩ := List.map_eq_singleton_iff.1 h
  have : e ∈ es.filter fun e => e.1 = k := by rw [h1]; exact List.mem_singleton.2 rfl
  have hk := of_decide_eq_true (List.mem_filter.1 this).2
  rw [h1, ← hk, ← h2]

/-- Mounts whose types differ. -/
theorem mount_type {p : List Str} {es fs : List (Str × Content)} (h : EditedEntry Structs.tagKey p es fs)
    {m m' : Structs.MountOf} (h2 : Structs.mountRead es = .ok m) (h4 : Structs.mountRead fs = .ok m') :
    DifferEntry Structs.tagKey p (Structs.mountWrite m) (Structs.mountWrite m') := by
  obtain ⟨s, hs, gs, a, wa, ha⟩ := mount_head h2
  obtain ⟨t, ht, gt, b, wb, hb⟩ := mount_head h4
  have hrest : (es.filter fun e => e.1 ≠ Structs.tagKey) = fs.filter fun e => e.1 ≠ Structs.tagKey := by
    have := h.filter_same (q := fun k => decide (k ≠ Structs.tagKey)) (by decide)
    simpa using this
  by_cases hst : s = t
  · subst hst
    have : Structs.mountRead es = Structs.mountRead fs := by
      unfold Structs.mountRead
      rw [tag_entries gs, tag_entries gt, hrest]
    rw [h2, h4] at this
    cases this
    exact .refl
  · have hp : p = [] := by
      rcases h.given with ⟨v, w, h1, h2, h3⟩ | ⟨h1, _⟩
      · rw [gs] at h1
        cases h1
        cases p with
        | nil => rfl
        | cons k p => obtain ⟨_, _, h, _⟩ := edited_maps h3; cases h
      · exact h1
    subst hp
    rw [← hrest] at hb
    obtain ⟨c, o, h5, rfl, h6⟩ := ha.written
    obtain ⟨c', o', h7, rfl, h8⟩ := hb.written
    cases Outcome.ok.inj (h5.symm.trans h7)
    have ho := h6 fun k hk hn => hb.others k (head_known s hs k hk) (head_apart s hs t ht hst k hk hn)
    have ho' := h8 fun k hk hn => ha.others k (head_known t ht k hk) (head_apart t ht s hs (Ne.symm hst) k hk hn)
    rw [wa, wb, ho, ho']
    exact .value (.refl _) (.refl _) .here

theorem mount_local : LocalOn (fun _ => True) Structs.mount := by
  refine localOn_of fun k p vs ws m m' hp hv hm hm' => ?_
  obtain ⟨es, h1, h2⟩ := Outcome.bind_eq_ok.1 hm
  obtain ⟨fs, h3, h4⟩ := Outcome.bind_eq_ok.1 hm'
  rw [entriesOf_iff.1 (Outcome.ofOption_eq_ok.1 h1), entriesOf_iff.1 (Outcome.ofOption_eq_ok.1 h3)] at hv
  refine DifferEntry.mapping (es := Structs.mountWrite m) (fs := Structs.mountWrite m') ?_
  by_cases hk : k = Structs.tagKey
  · subst hk; exact mount_type (edited_mapping hv) h2 h4
  · exact mount_others (edited_mapping hv) hk h2 h4

instance : Local Structs.mount := ⟨mount_local⟩

/-! ### Resources -/

/-- Values of a flattened field that are the same are written with at most the order of entries changed. -/
class ItemPerm (i : Item) : Prop where
  perm : ∀ f, i = .flat f → ∀ x y, f.same x y → (f.write x).Perm (f.write y)

/-- The same for all fields of a struct. -/
class ItemsPerm (is : List Item) : Prop where
  all : ∀ i ∈ is, ItemPerm i

instance : ItemsPerm [] := ⟨fun _ h => by cases h⟩

instance {i : Item} {is : List Item} [h : ItemPerm i] [hs : ItemsPerm is] : ItemsPerm (i :: is) := ⟨List.forall_mem_cons.2 ⟨h, hs.all⟩⟩

section
variable {α : Type} {key : String}
instance {c : Codec α} : ItemPerm (opt key c) := ⟨fun _ h => (by cases h)⟩
instance : ItemPerm (flag key) := ⟨fun _ h => (by cases h)⟩
instance {c : Codec (List α)} : ItemPerm (many key c) := ⟨fun _ h => (by cases h)⟩
instance : ItemPerm (manyListOrMap key) := ⟨fun _ h => (by cases h)⟩
end

instance : ItemPerm extensions := ⟨fun f hf x y h => by cases hf; exact h⟩
instance : ItemPerm configSource := ⟨fun f hf x y h => by cases hf; cases h; exact .refl _⟩
instance : ItemPerm secretSource := ⟨fun f hf x y h => by cases hf; cases h; exact .refl _⟩

theorem same_perm {is : List Item} (h : ∀ i ∈ is, ItemPerm i) {r r' : Record is} (hs : same is r r') : (write is r).Perm (write is r') := by
  induction is with
  | nil => exact .refl _
  | cons i is ih =>
    obtain ⟨h1, h2⟩ := List.forall_mem_cons.1 h
    obtain ⟨x, r⟩ := r
    obtain ⟨y, r'⟩ := r'
    cases i with
    | field f => obtain ⟨rfl, h3⟩ := hs; exact (ih h2 h3).append_left _
    | flat f => exact (h1.perm f rfl x y hs.1).append (ih h2 hs.2)

/-- What is read from a mapping that has no entries, or only a name, is written as the same mapping. -/
class NameOnly (is : List Item) : Prop where
  empty : ∀ r, decode is [] = .ok r → write is r = []
  name : ∀ n r, decode is [("name".toList, .str n)] = .ok r → write is r = [("name".toList, .str n)]

instance {E : Env} : NameOnly (Structs.network E) where
  empty r h := by cases h; rfl
  name n r h := by cases h; rfl

instance : NameOnly Structs.volume where
  empty r h := by cases h; rfl
  name n r h := by cases h; rfl

instance : NameOnly Structs.config where
  empty r h := by cases h
  name n r h := by cases h

instance : NameOnly Structs.secret where
  empty r h := by cases h
  name n r h := by cases h

instance {E : Env} : ItemsPerm (Structs.network E) := by unfold Structs.network; infer_instance
instance : ItemsPerm Structs.volume := by unfold Structs.volume; infer_instance
instance : ItemsPerm Structs.config := by unfold Structs.config; infer_instance
instance : ItemsPerm Structs.secret := by unfold Structs.secret; infer_instance

/-- A map is the entry of one of its keys and the other entries. -/
theorem perm_entry {m : List (Str × Content)} (hm : (m.map (·.1)).Nodup) {k : Str} {v : Content} (h : (k, v) ∈ m) :
    m.Perm ((k, v) :: m.filter (·.1 ≠ k)) := by
  induction m with
  | nil => cases h
  | cons e m ih =>
    obtain ⟨h1, h2⟩ := List.nodup_cons.1 hm
    rcases List.mem_cons.1 h with rfl | h
    · have : m.filter (·.1 ≠ k) = m := List.filter_eq_self.2 fun e he => by
        simp only [ne_eq, decide_not, Bool.not_eq_true', decide_eq_false_iff_not]
        rintro rfl
        exact h1 (List.mem_map.2 ⟨e, he, rfl⟩)
      rw [List.filter_cons_of_neg (by simp), this]
    · have hk : e.1 ≠ k := by
        rintro rfl
        exact h1 (List.mem_map.2 ⟨_, h, rfl⟩)
      rw [List.filter_cons_of_pos (by simpa using hk)]
      exact ((ih h2 h).cons e).trans (.swap _ _ _)

/-- The entries of which a resource is read. -/
inductive ReadAs {T : Type} (order : IndexMap Str Content → List (Str × Content)) (de : List (Str × Content) → Option T)
    (m : IndexMap Str Content) : Resource T → Prop
  | external : m.Perm [("external".toList, .bool true)] → ReadAs order de m (.external none)
  | named {name : Str} : m.Perm [("external".toList, .bool true), ("name".toList, .str name)] →
      ReadAs order de m (.external (some name))
  | compose {t : T} : (∀ v, ("external".toList, v) ∈ m → v = .bool false) →
      de (order (m.filter (·.1 ≠ "external".toList))) = some t → ReadAs order de m (.compose t)

theorem fromMap_readAs {T : Type} {order : IndexMap Str Content → List (Str × Content)} {de : List (Str × Content) → Option T}
    {m : IndexMap Str Content} {x : Resource T} (hm : IndexMap.Ok m) (h : Resource.fromMap order de m = some x) : ReadAs order de m x := by
  unfold Resource.fromMap at h
  dsimp only at h
  have ext : ∀ {v}, IndexMap.get m "external".toList = some v → m.Perm (("external".toList, v) :: m.filter (·.1 ≠ "external".toList)) :=
    fun h => perm_entry hm ((IndexMap.get_eq_some hm).1 h)
  split at h
  · rename_i he
    refine ?_
    split at h
    · rename_i hn
      split at h
      · rename_i hr
        cases h
        refine .external ((ext he).trans (List.Perm.cons _ ?_))
        have : m.filter (·.1 ≠ "external".toList) = [] := by
          rw [← hr]
          refine (List.filter_eq_self.2 fun e h => ?_).symm
          have := IndexMap.get_eq_none.1 hn
          simp only [ne_eq, decide_not, Bool.not_eq_true', decide_eq_false_iff_not]
          rintro hk
          exact this (hk ▸ List.mem_map_of_mem h)
        rw [this]
      · cases h
    · rename_i n hn
      split at h
      · rename_i hr
        cases h
        refine .named ((ext he).trans (List.Perm.cons _ ?_))
        have := perm_entry (ok_filter hm _) ((IndexMap.get_eq_some (ok_filter hm _)).1 hn)
        rwa [hr] at this
      · cases h
    · cases h
  · rename_i he
    obtain ⟨t, h1, rfl⟩ := Option.map_eq_some_iff.1 h
    refine .compose (fun v hv => ?_) h1
    exact Option.some.inj (((IndexMap.get_eq_some hm).2 hv).symm.trans he)
  · cases h
  · rename_i he
    obtain ⟨t, h1, rfl⟩ := Option.map_eq_some_iff.1 h
    exact .compose (fun v hv => absurd (List.mem_map_of_mem hv) (IndexMap.get_eq_none.1 he)) h1

theorem EditedEntry.collect {k : Str} {p : List Str} {es fs : List (Str × Content)} (h : EditedEntry k p es fs) :
    EditedEntry k p (IndexMap.collect es) (IndexMap.collect fs) := by
  have fresh : ∀ {a b a' b' : List (Str × Content)} {x : Content}, IndexMap.collect (a ++ (k, x) :: b) = a' ++ (k, x) :: b' →
      k ∉ (a' ++ b').map (·.1) := fun {a b a' b' x} h => by
    have : IndexMap.Ok _ := IndexMap.ok_collect (a ++ (k, x) :: b)
    rw [h] at this
    replace this : ((a' ++ (k, x) :: b').map (·.1)).Nodup := this
    have := ((List.perm_middle (a := (k, x)) (l₁ := a') (l₂ := b')).map (·.1)).nodup_iff.1 this
    exact (List.nodup_cons.1 this).1
  cases h with
  | value h1 h2 =>
    obtain ⟨a', b', h3, _⟩ := collect_apart h1
    rw [h3, h3]
    exact .value (fresh (h3 .unit)) h2
  | add h1 =>
    obtain ⟨a', b', h3, h4⟩ := collect_apart h1
    rw [h3, h4]
    exact .add (fresh (h3 .unit))
  | remove h1 =>
    obtain ⟨a', b', h3, h4⟩ := collect_apart h1
    rw [h3, h4]
    exact .remove (fresh (h3 .unit))

/-- The entries that are written for a resource. -/
def resourceWrite (is : List Item) : Resource (Record is) → List (Str × Content)
  | .external none => [("external".toList, .bool true)]
  | .external (some name) => [("external".toList, .bool true), ("name".toList, .str name)]
  | .compose r => write is r

theorem mem_given {m : List (Str × Content)} {k : Str} {v : Content} : v ∈ given m k ↔ (k, v) ∈ m := by
  unfold given
  rw [List.mem_map]
  constructor
  · rintro ⟨e, h, rfl⟩
    obtain ⟨h1, h2⟩ := List.mem_filter.1 h
    cases of_decide_eq_true h2
    exact h1
  · exact fun h => ⟨(k, v), List.mem_filter.2 ⟨h, decide_eq_true rfl⟩, rfl⟩

/-- An external resource, and one that is not. -/
theorem resource_switched {E : Env} [EnvOk E] {is : List Item} [NameOnly is] {k : Str} {p : List Str} {m m' : IndexMap Str Content}
    (h : EditedEntry k p m m') {r : Record is} {es : List (Str × Content)} (hm : m.Perm (("external".toList, .bool true) :: es))
    (hes : es = [] ∨ ∃ n, es = [("name".toList, .str n)]) (hk : ∀ v, ("external".toList, v) ∈ m' → v = .bool false)
    (hr : decode is (E.order (m'.filter (·.1 ≠ "external".toList))) = .ok r) :
    DifferEntry k p (("external".toList, .bool true) :: es) (write is r) := by
  have he : ("external".toList, Content.bool true) ∈ m := hm.mem_iff.2 List.mem_cons_self
  have hke : k = "external".toList := by
    by_contra hne
    have := hk _ (mem_given.1 (h.given_same hne ▸ mem_given.2 he))
    cases this
  subst hke
  have hp : p = [] := by
    rcases h.given with ⟨v, w, h1, h2, h3⟩ | ⟨h1, _⟩
    · have h4 := mem_given.2 he
      rw [h1, List.mem_singleton] at h4
      subst h4
      cases p with
      | nil => rfl
      | cons k p => obtain ⟨_, _, h, _⟩ := edited_maps h3; cases h
    · exact h1
  subst hp
  have hrest : m.filter (·.1 ≠ "external".toList) = m'.filter (·.1 ≠ "external".toList) :=
    h.filter_same (q := fun k => decide (k ≠ "external".toList)) (decide_eq_false fun h => h rfl)
  have hperm : (m.filter (·.1 ≠ "external".toList)).Perm es := by
    have := hm.filter (fun e => decide (e.1 ≠ "external".toList))
    refine this.trans (.of_eq ?_)
    rcases hes with rfl | ⟨n, rfl⟩ <;> rfl
  rw [← hrest] at hr
  have hord := (EnvOk.order (E := E) (m.filter (·.1 ≠ "external".toList))).trans hperm
  have hw : write is r = es := by
    rcases hes with rfl | ⟨n, rfl⟩
    · rw [List.perm_nil.1 hord] at hr; exact NameOnly.empty r hr
    · rw [List.perm_singleton.1 hord] at hr; exact NameOnly.name n r hr
  rw [hw]
  exact .missingRight (.refl _) .here

theorem resource_local {E : Env} [EnvOk E] {is : List Item} {own : List Str} [Keys is own] [DistinctKeys own] [hi : ItemsEverywhere is]
    [hp : ItemsPerm is] [hs : ItemsStable is] [NameOnly is] : LocalOn (fun _ => True) (Structs.resource E is) := by
  refine localOn_of fun k p vs ws x x' _ hv hx hx' => ?_
  have hx : Resource.deserialize E.order (fun es => (decode is es).toOption) (.map vs) = some x := Outcome.ofOption_eq_ok.1 hx
  have hx' : Resource.deserialize E.order (fun es => (decode is es).toOption) (.map ws) = some x' := Outcome.ofOption_eq_ok.1 hx'
  obtain ⟨m, h1, h2⟩ := Option.bind_eq_some_iff.1 hx
  obtain ⟨m', h3, h4⟩ := Option.bind_eq_some_iff.1 hx'
  obtain ⟨es, h5, rfl⟩ := Option.map_eq_some_iff.1 h1
  obtain ⟨fs, h6, rfl⟩ := Option.map_eq_some_iff.1 h3
  rw [entriesOf_iff.1 (show entriesOf (.map vs) = some es from h5), entriesOf_iff.1 (show entriesOf (.map ws) = some fs from h6)] at hv
  have h := (edited_mapping hv).collect
  have ha := fromMap_readAs (IndexMap.ok_collect es) h2
  have hb := fromMap_readAs (IndexMap.ok_collect fs) h4
  have hok := IndexMap.ok_collect es
  have hok' := IndexMap.ok_collect fs
  generalize IndexMap.collect es = m at h ha hok
  generalize IndexMap.collect fs = m' at h hb hok'
  have hser : ∀ x, (Structs.resource E is).ser x = Derive.mapping (resourceWrite is x) := by
    rintro ((_ | n) | r) <;> rfl
  rw [hser, hser]
  refine DifferEntry.mapping ?_
  clear hv hx hx' h1 h2 h3 h4 h5 h6 hser
  cases ha with
  | external h1 =>
    cases hb with
    | external h2 => exact h.differ.perm h1 h2
    | named h2 => exact h.differ.perm h1 h2
    | compose h2 h3 => exact resource_switched h h1 (.inl rfl) h2 (toOption_some.1 h3)
  | named h1 =>
    cases hb with
    | external h2 => exact h.differ.perm h1 h2
    | named h2 => exact h.differ.perm h1 h2
    | compose h2 h3 => exact resource_switched h h1 (.inr ⟨_, rfl⟩) h2 (toOption_some.1 h3)
  | @compose r h1 h2 =>
    replace h2 := toOption_some.1 h2
    cases hb with
    | external h3 => exact (resource_switched h.symm h3 (.inl rfl) h1 h2).symm
    | named h3 => exact (resource_switched h.symm h3 (.inr ⟨_, rfl⟩) h1 h2).symm
    | @compose r' h3 h4 =>
      replace h4 := toOption_some.1 h4
      show DifferEntry k p (write is r) (write is r')
      by_cases hk : k = "external".toList
      · have hrest : m.filter (·.1 ≠ "external".toList) = m'.filter (·.1 ≠ "external".toList) :=
          h.filter_same (q := fun k => decide (k ≠ "external".toList)) (decide_eq_false fun h => h hk)
        rw [hrest] at h2
        cases Outcome.ok.inj (h2.symm.trans h4)
        exact .refl
      · have hrest := h.filter (q := fun k => decide (k ≠ "external".toList)) (decide_eq_true hk)
        have nodup : ∀ {m : IndexMap Str Content}, IndexMap.Ok m → ((E.order m).map (·.1)).Nodup := fun hm =>
          ((EnvOk.order (E := E) _).map Prod.fst).nodup_iff.2 hm
        obtain ⟨r1, h5, h6⟩ := decode_perm table_good hs.stable (EnvOk.order (E := E) _) (nodup (ok_filter hok _)) h2
        obtain ⟨r2, h7, h8⟩ := decode_perm table_good hs.stable (EnvOk.order (E := E) _) (nodup (ok_filter hok' _)) h4
        have := decode_edited (P := fun _ => True) table_good trivial (fun i hi' => (hi.all i hi').all) hrest h5 h7
        exact this.perm (same_perm hp.all h6).symm (same_perm hp.all h8).symm

instance {E : Env} [EnvOk E] {is : List Item} {own : List Str} [Keys is own] [DistinctKeys own] [ItemsEverywhere is]
    [ItemsPerm is] [ItemsStable is] [NameOnly is] : Local (Structs.resource E is) := ⟨resource_local⟩

/-! ### Services and files -/

theorem LocalOn.mono {α : Type} {P Q : List Str → Prop} {c : Codec α} (h : LocalOn P c) (hq : ∀ p, Q p → P p) : LocalOn Q c :=
  fun p v w x y hp => h p v w x y (hq p hp)

/-- As `ItemEverywhere`, for some paths only. -/
class LocalItem (P : List Str → Prop) (i : Item) : Prop where
  all : ItemLocal P i

/-- As `ItemsEverywhere`, for some paths only. -/
class LocalItems (P : List Str → Prop) (is : List Item) : Prop where
  all : ∀ i ∈ is, ItemLocal P i

instance {P : List Str → Prop} : LocalItems P [] := ⟨fun _ h => by cases h⟩

instance instLocalItemsCons {P : List Str → Prop} {i : Item} {is : List Item} [h : LocalItem P i] [hs : LocalItems P is] :
    LocalItems P (i :: is) := ⟨List.forall_mem_cons.2 ⟨h.all, hs.all⟩⟩

instance (priority := low) {P : List Str → Prop} {i : Item} [ItemEverywhere i] : LocalItem P i := ⟨ItemEverywhere.any P⟩

/-- The paths of all settings of a service but the test of its healthcheck. -/
def NotTest (p : List Str) : Prop := ¬ ["healthcheck".toList, "test".toList] <+: p

instance : LocalItem NotTest (opt "healthcheck" healthcheck) :=
  ⟨opt_local (healthcheck_local.mono fun p hp ht => hp (by
    cases p with
    | nil => cases ht
    | cons k p => cases Option.some.inj ht; exact ⟨p, rfl⟩))⟩

set_option synthInstance.maxHeartbeats 400000 in
set_option synthInstance.maxSize 4096 in
instance {E : Env} : LocalItems NotTest (Structs.service E) := by
  unfold Structs.service
  dsimp only
  repeat' first | exact inferInstanceAs (LocalItems _ []) | refine @instLocalItemsCons _ _ _ ?_ ?_ | infer_instance

theorem service_local {E : Env} : LocalOn NotTest (struct (Structs.service E)) := struct_local table_good LocalItems.all

/-- The paths of all settings of a file but the tests of healthchecks. -/
def NotTests (p : List Str) : Prop := ∀ name, ¬ ["services".toList, name, "healthcheck".toList, "test".toList] <+: p

instance {E : Env} : LocalItem NotTests (req "services" (map identifierKey (struct (Structs.service E)))) :=
  ⟨req_local (map_local fun name => service_local.mono fun p hp h => hp name (by
    obtain ⟨q, rfl⟩ := h; exact ⟨q, rfl⟩))⟩

instance {E : Env} [EnvOk E] : LocalItems NotTests (Structs.compose E) := by unfold Structs.compose; infer_instance

theorem compose_local {E : Env} [EnvOk E] : LocalOn NotTests (struct (Structs.compose E)) := struct_local table_good LocalItems.all

end Proofs
