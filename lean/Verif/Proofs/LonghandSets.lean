import Verif.Proofs.Longhand
import Verif.Proofs.Equality
import Verif.Proofs.Kept

/- The long syntax of volumes and ports, which are sets. -/

namespace Proofs
open Rust Compose Compose.Derive Compose.Codecs Spec Spec.Longhand
open Props hiding mapping entriesOf_mapping

/-! ### Sets -/

section
variable {α β : Type} (a : RustEq α) (b : RustEq β)

theorem collectNew_append (l : List β) (m : List β) :
    IndexSet.collectNew (l ++ m) = m.foldl IndexSet.insertNew (IndexSet.collectNew l) := by
  simp [IndexSet.collectNew, List.foldl_append]

theorem collectNew_covers (hr : ∀ x : β, RustEq.eq x x = true) (l : List β) :
    ∀ z ∈ l, ∃ w ∈ IndexSet.collectNew l, RustEq.eq z w = true := by
  induction l using List.reverseRecOn with
  | nil => simp
  | append_singleton l x ih =>
    intro z hz
    rw [collectNew_append, List.foldl_cons, List.foldl_nil, IndexSet.insertNew]
    have keep : ∀ w ∈ IndexSet.collectNew l, w ∈ (if (IndexSet.collectNew l).any (RustEq.eq x) then IndexSet.collectNew l
        else IndexSet.collectNew l ++ [x]) := by
      intro w hw
      split
      · exact hw
      · exact List.mem_append_left _ hw
    rcases List.mem_append.1 hz with h | h
    · obtain ⟨w, h1, h2⟩ := ih z h
      exact ⟨w, keep w h1, h2⟩
    · obtain rfl : z = x := by simpa using h
      by_cases ha : (IndexSet.collectNew l).any (RustEq.eq z) = true
      · obtain ⟨w, h1, h2⟩ := List.any_eq_true.1 ha
        exact ⟨w, keep w h1, h2⟩
      · rw [if_neg ha]
        exact ⟨z, by simp, hr z⟩

/-- Equal items may be dropped before or after each is replaced. -/
theorem collectNew_flatMap {F : α → List β} (hr : ∀ x : β, RustEq.eq x x = true)
    (ht : ∀ x y z : β, RustEq.eq x y = true → RustEq.eq y z = true → RustEq.eq x z = true)
    (hf : ∀ x y, RustEq.eq x y = true → ∀ z ∈ F x, ∃ w ∈ F y, RustEq.eq z w = true) (l : List α) :
    IndexSet.collectNew ((IndexSet.collectNew l).flatMap F) = IndexSet.collectNew (l.flatMap F) := by
  induction l using List.reverseRecOn with
  | nil => rfl
  | append_singleton l x ih =>
    have h1 : (l ++ [x]).flatMap F = l.flatMap F ++ F x := by simp
    rw [h1, collectNew_append _ l [x], collectNew_append _ (l.flatMap F), List.foldl_cons, List.foldl_nil, IndexSet.insertNew, ← ih]
    split
    · rename_i ha
      obtain ⟨y, h2, h3⟩ := List.any_eq_true.1 ha
      have key : ∀ z ∈ F x, (IndexSet.collectNew ((IndexSet.collectNew l).flatMap F)).any (RustEq.eq z) = true := by
        intro z hz
        obtain ⟨w, h4, h5⟩ := hf x y h3 z hz
        obtain ⟨u, h6, h7⟩ := collectNew_covers b hr _ w (List.mem_flatMap.2 ⟨y, h2, h4⟩)
        exact List.any_eq_true.2 ⟨u, h6, ht _ _ _ h5 h7⟩
      have drop : ∀ (m acc : List β), (∀ z ∈ m, acc.any (RustEq.eq z) = true) → m.foldl IndexSet.insertNew acc = acc := by
        intro m
        induction m with
        | nil => intro acc _; rfl
        | cons z m ihm =>
          intro acc h
          obtain ⟨h8, h9⟩ := List.forall_mem_cons.1 h
          rw [List.foldl_cons, IndexSet.insertNew, if_pos h8]
          exact ihm acc h9
      exact (drop _ _ key).symm
    · rw [List.flatMap_append, collectNew_append]
      simp

end

/-! ### Equality -/

section
variable {E : Env} [hv : ValueEqOk E]

theorem equalExtensions_refl (x : List (Str × Content)) : EqualExtensions E x x := by
  unfold EqualExtensions
  induction x with
  | nil => exact .nil
  | cons e x ih => exact .cons ⟨rfl, hv.refl _⟩ ih

theorem equalExtensions_trans {x y z : List (Str × Content)} (h : EqualExtensions E x y) (h' : EqualExtensions E y z) :
    EqualExtensions E x z := by
  unfold EqualExtensions at *
  induction h generalizing z with
  | nil => exact h'
  | cons h1 _ ih =>
    cases h' with
    | cons h2 h3 => exact .cons ⟨h1.1.trans h2.1, hv.trans _ _ _ h1.2 h2.2⟩ (ih h3)

theorem optionRel_refl {α : Type} {R : α → α → Prop} (h : ∀ x, R x x) (x : Option α) : Option.Rel R x x := by
  cases x
  · exact .none
  · exact .some (h _)

theorem optionRel_trans {α : Type} {R : α → α → Prop} (h : ∀ x y z, R x y → R y z → R x z) {x y z : Option α}
    (h1 : Option.Rel R x y) (h2 : Option.Rel R y z) : Option.Rel R x z := by
  cases h1 with
  | none => exact h2
  | some h1 => cases h2 with
    | some h2 => exact .some (h _ _ _ h1 h2)

theorem equalCommon_refl (x : Record Structs.common) : EqualCommon E x x := by
  obtain ⟨a, b, c, d, ⟨⟩⟩ := x
  exact .fields rfl (equalExtensions_refl _)

theorem equalCommon_trans {x y z : Record Structs.common} (h : EqualCommon E x y) (h' : EqualCommon E y z) : EqualCommon E x z := by
  cases h with
  | fields h1 h2 => cases h' with
    | fields h3 h4 => exact .fields (h1.trans h3) (equalExtensions_trans h2 h4)

theorem equalMount_refl (x : Structs.MountOf) : EqualMount E x x := by
  cases x with
  | volume r =>
    obtain ⟨s, o, c, ⟨⟩⟩ := r
    refine .volume (optionRel_refl (fun x => ?_) o) (equalCommon_refl _)
    obtain ⟨a, b, d, ⟨⟩⟩ := x
    exact .fields (optionRel_refl (R := EqualPath) (fun _ => rfl) _) (equalExtensions_refl _)
  | bind r =>
    obtain ⟨s, o, c, ⟨⟩⟩ := r
    refine .bind rfl (optionRel_refl (fun x => ?_) o) (equalCommon_refl _)
    obtain ⟨a, b, d, e, ⟨⟩⟩ := x
    exact .fields (equalExtensions_refl _)
  | tmpfs r =>
    obtain ⟨o, c, ⟨⟩⟩ := r
    refine .tmpfs (optionRel_refl (fun x => ?_) o) (equalCommon_refl _)
    obtain ⟨a, b, d, ⟨⟩⟩ := x
    exact .fields (equalExtensions_refl _)
  | namedPipe r =>
    obtain ⟨s, c, ⟨⟩⟩ := r
    exact .namedPipe rfl (equalCommon_refl _)
  | cluster r =>
    obtain ⟨s, c, ⟨⟩⟩ := r
    exact .cluster (equalCommon_refl _)

theorem equalMount_trans {x y z : Structs.MountOf} (h : EqualMount E x y) (h' : EqualMount E y z) : EqualMount E x z := by
  cases h with
  | volume h1 h2 => cases h' with
    | volume h3 h4 =>
      refine .volume (optionRel_trans (fun x y z h h' => ?_) h1 h3) (equalCommon_trans h2 h4)
      cases h with
      | fields g1 g2 => cases h' with
        | fields g3 g4 => exact .fields (optionRel_trans (R := EqualPath) (fun _ _ _ => Eq.trans) g1 g3) (equalExtensions_trans g2 g4)
  | bind h0 h1 h2 => cases h' with
    | bind h5 h3 h4 =>
      refine .bind (h0.trans h5) (optionRel_trans (fun x y z h h' => ?_) h1 h3) (equalCommon_trans h2 h4)
      cases h with
      | fields g2 => cases h' with
        | fields g4 => exact .fields (equalExtensions_trans g2 g4)
  | tmpfs h1 h2 => cases h' with
    | tmpfs h3 h4 =>
      refine .tmpfs (optionRel_trans (fun x y z h h' => ?_) h1 h3) (equalCommon_trans h2 h4)
      cases h with
      | fields g2 => cases h' with
        | fields g4 => exact .fields (equalExtensions_trans g2 g4)
  | namedPipe h1 h2 => cases h' with
    | namedPipe h3 h4 => exact .namedPipe (h1.trans h3) (equalCommon_trans h2 h4)
  | cluster h2 => cases h' with
    | cluster h4 => exact .cluster (equalCommon_trans h2 h4)

theorem equalPort_refl (x : Record (Structs.port E)) : EqualPort E x x := by
  obtain ⟨a, b, c, d, e, f, g, h, ⟨⟩⟩ := x
  exact .fields (equalExtensions_refl _)

theorem equalPort_trans {x y z : Record (Structs.port E)} (h : EqualPort E x y) (h' : EqualPort E y z) : EqualPort E x z := by
  cases h with
  | fields h1 => cases h' with
    | fields h2 => exact .fields (equalExtensions_trans h1 h2)

theorem mountOfShort_equal {x y : ShortVolume} (h : EqualShortVolume x y) :
    EqualMount E (Structs.mountOfShort x) (Structs.mountOfShort y) := by
  obtain ⟨p, o⟩ := x
  obtain ⟨q, o'⟩ := y
  obtain ⟨h1, h2⟩ := h
  cases h2 with
  | none => exact .volume .none (.fields h1 .nil)
  | @some o o' h2 =>
    obtain ⟨s, r, l⟩ := o
    obtain ⟨s', r', l'⟩ := o'
    obtain ⟨h3, h4, h5⟩ := h2
    dsimp only at h3 h4 h5
    subst h4 h5
    cases h3 with
    | hostPath h3 => exact .bind h3 (.some (.fields .nil)) (.fields h1 .nil)
    | volume => exact .volume .none (.fields h1 .nil)

end

/-! ### Volumes -/

theorem absolutePath_read {p : Str} (h : AbsolutePath p) : absolutePath.de (.str p) = .ok p := Lawful.read p h

theorem identifier_read {p : Str} (h : Identifier p) : identifier.de (.str p) = .ok p := Lawful.read p h

theorem hostPath_read {p : Str} (h : HostPath p) : hostPath.de (.str p) = .ok p := Lawful.read p h

theorem selinux_read (s : SELinux) : Codecs.selinux.de (Longhand.selinux s) = .ok s := by cases s <;> rfl

theorem shortVolume_iff {v : Content} {x : ShortVolume} : shortVolume.de v = .ok x ↔ ∃ s, v = .str s ∧ ShortVolumeText s x := by
  rw [Denotes.iff (c := shortVolume) (m := Meaning.text ShortVolumeText)]
  rfl

theorem mount_mappingOf {tag : String} {es : List (String × Content)} :
    Structs.mount.de (mappingOf (("type", asText tag) :: es)) =
      Structs.mountRead ((Structs.tagKey, .str tag.toList) :: es.map fun e => (e.1.toList, e.2)) := by
  have : mappingOf (("type", asText tag) :: es) =
      Derive.mapping ((Structs.tagKey, .str tag.toList) :: es.map fun e => (e.1.toList, e.2)) := by
    unfold mappingOf Derive.mapping
    simp [asText, Structs.tagKey]
  rw [this]
  simp [Structs.mount]

theorem decode_of {is : List Item} {own : List Str} [hk : Keys is own] [DistinctKeys own] {es : List (Str × Content)}
    {r : Record is} (h : StandsFor own es is r) : decode is es = .ok r := by
  rw [decode_ok table_good, hk.eq]
  exact h

/-- A field whose key is not given. -/
local macro "left_out" : term => `(Or.inr ⟨by simp [given], rfl⟩)

/-- A field that is given. -/
local macro "is_given" v:term "," h:term : term => `(Or.inl ⟨$v, by simp [given], $h⟩)

theorem common_read {es : List (Str × Content)} {p : Str} {r : Bool} (hp : AbsolutePath p)
    (h1 : given es "target".toList = [.str p]) (h2 : given es "read_only".toList = [.bool r] ∨ given es "read_only".toList = [] ∧ r = false)
    (h3 : given es "consistency".toList = []) (h4 : es.filter (fun e => e.1 ∉ commonKeys) = []) :
    decode Structs.common es = .ok (p, r, none, [], ()) := by
  refine decode_of ⟨.inl ⟨_, h1, absolutePath_read hp⟩, ?_, .inr ⟨h3, rfl⟩, ?_, trivial⟩
  · rcases h2 with h2 | ⟨h2, rfl⟩
    · exact .inl ⟨_, h2, rfl⟩
    · exact .inr ⟨h2, rfl⟩
  · dsimp only [extensions, entriesFor]
    rw [h4]
    rfl

theorem bindOptions_long (l : Option SELinux) : (struct Structs.bindOptions).de
    (mappingOf (("create_host_path", .bool true) :: optional "selinux" (l.map Longhand.selinux))) =
      .ok (none, true, l, [], ()) := by
  cases l with
  | none =>
    show (struct Structs.bindOptions).de (mappingOf [("create_host_path", .bool true)]) = _
    exact struct_mappingOf ⟨left_out, .inl ⟨.bool true, by simp [given], rfl⟩, left_out,
      by simp [extensions, entriesFor, Item.Ty, readEntries, IndexMap.collect, bindOptionsKeys], trivial⟩
  | some l =>
    show (struct Structs.bindOptions).de (mappingOf [("create_host_path", .bool true), ("selinux", Longhand.selinux l)]) = _
    exact struct_mappingOf ⟨left_out, .inl ⟨.bool true, by simp [given], rfl⟩,
      .inl ⟨Longhand.selinux l, by simp [given], by cases l <;> rfl⟩,
      by simp [extensions, entriesFor, Item.Ty, readEntries, IndexMap.collect, bindOptionsKeys], trivial⟩

theorem anonymous_long {p : Str} (hp : AbsolutePath p) : decode Structs.mountVolume [("target".toList, .str p)] =
    .ok (none, none, (p, false, none, [], ()), ()) :=
  decode_of ⟨left_out, left_out,
    common_read hp (by simp [given, entriesFor, mountVolumeKeys]) (.inr (by simp [given, entriesFor, mountVolumeKeys]))
      (by simp [given, entriesFor, mountVolumeKeys]) (by simp [entriesFor, commonKeys]), trivial⟩

theorem named_long {p n : Str} {r : Bool} (hp : AbsolutePath p) (hn : Identifier n) :
    decode Structs.mountVolume [("source".toList, .str n), ("target".toList, .str p), ("read_only".toList, .bool r)] =
      .ok (some n, none, (p, r, none, [], ()), ()) :=
  decode_of ⟨.inl ⟨.str n, by simp [given], by simp [option, identifier_read hn]⟩, left_out,
    common_read hp (by simp [given, entriesFor, mountVolumeKeys]) (.inl (by simp [given, entriesFor, mountVolumeKeys]))
      (by simp [given, entriesFor, mountVolumeKeys]) (by simp [entriesFor, mountVolumeKeys, commonKeys]), trivial⟩

theorem bind_long {p n : Str} {r : Bool} {o : List (Content × Content)} {x : Record Structs.bindOptions} (hp : AbsolutePath p) (hn : HostPath n)
    (ho : (struct Structs.bindOptions).de (.map o) = .ok x) :
    decode Structs.mountBind [("source".toList, .str n), ("target".toList, .str p), ("read_only".toList, .bool r), ("bind".toList, .map o)] =
      .ok (n, some x, (p, r, none, [], ()), ()) :=
  decode_of ⟨.inl ⟨.str n, by simp [given], hostPath_read hn⟩, .inl ⟨.map o, by simp [given], by simp [option, ho]⟩,
    common_read hp (by simp [given, entriesFor, mountBindKeys]) (.inl (by simp [given, entriesFor, mountBindKeys]))
      (by simp [given, entriesFor, mountBindKeys]) (by simp [entriesFor, mountBindKeys, commonKeys]), trivial⟩

theorem volume_long {x : ShortVolume} (h : ShortVolumeOk x) :
    Structs.mount.de (Longhand.volume x) = .ok (Structs.mountOfShort x) := by
  obtain ⟨p, o⟩ := x
  obtain ⟨hp, ho⟩ := h
  dsimp only at hp ho
  cases o with
  | none =>
    unfold Longhand.volume
    dsimp only
    rw [mount_mappingOf, mountRead_tag (by simp [Structs.tagKey]), if_pos rfl]
    simp only [List.map_cons, List.map_nil, anonymous_long hp]
    rfl
  | some o =>
    obtain ⟨s, r, l⟩ := o
    cases s with
    | volume n =>
      unfold Longhand.volume
      dsimp only
      rw [mount_mappingOf, mountRead_tag (by simp [Structs.tagKey]), if_pos rfl]
      rw [List.map_cons, List.map_cons, List.map_cons, List.map_nil, named_long (n := n) (r := r) hp (ho _ rfl).2]
      rfl
    | hostPath n =>
      have hb := bindOptions_long l
      unfold Longhand.volume
      dsimp only
      rw [mount_mappingOf, mountRead_tag (by simp [Structs.tagKey]), if_neg (by decide), if_pos rfl]
      rw [mappingOf] at hb ⊢
      simp only [List.map_cons, List.map_nil] at hb ⊢
      rw [bind_long (n := n) (r := r) hp (ho _ rfl).2 hb]
      rfl

theorem shortVolumeText_ok {s : Str} {x : ShortVolume} (h : ShortVolumeText s x) : ShortVolumeOk x := by
  have hs : ∀ {t : Str} {s : VolumeSource}, SourceText t s → SourceText s.toStr s := by
    intro t s h
    cases s <;> (obtain ⟨rfl, h⟩ := h; exact ⟨rfl, h⟩)
  rcases h with ⟨h1, h2⟩ | ⟨h1, h2, h3, h4⟩ | ⟨h1, h2, h3, h4, _⟩
  · exact ⟨h1, fun _ h => by cases h⟩
  · exact ⟨h3, fun _ h => by cases h; exact hs h1⟩
  · exact ⟨h3, fun _ h => by cases h; exact hs h1⟩

theorem turns_volumeItem : Turns (shortOrLong shortVolume Structs.mount) longVolume (Longhand.long Structs.mountOfShort) := by
  intro v x hx
  cases v <;> simp only [shortOrLong, Outcome.map_eq_ok] at hx <;> obtain ⟨y, h1, rfl⟩ := hx
  case map es =>
    have h2 : shortVolume.de (.map es) = .err () := rfl
    simp [longVolume, h2, shortOrLong, h1, Longhand.long, ShortOrLong.intoLong]
  all_goals
    have h2 := volume_long (by obtain ⟨s, -, h⟩ := shortVolume_iff.1 h1; exact shortVolumeText_ok h)
    have h3 : ∃ es, Longhand.volume y = .map es := by
      obtain ⟨p, o⟩ := y
      unfold Longhand.volume
      cases o with
      | none => exact ⟨_, rfl⟩
      | some o => obtain ⟨_ | _, _, _⟩ := o <;> exact ⟨_, rfl⟩
    obtain ⟨es, h3⟩ := h3
    rw [h3] at h2
    simp [longVolume, h1, h3, shortOrLong, h2, Longhand.long, ShortOrLong.intoLong]

theorem eq_of_same {α : Type} (e : RustEq α) (same : α → α → Prop) [h : EqIs e same] {x y : α} : RustEq.eq x y = true ↔ same x y := h.iff x y

theorem equalForm_refl {S L : Type} {R : S → S → Prop} {R' : L → L → Prop} (h : ∀ x, R x x) (h' : ∀ x, R' x x) (x : ShortOrLong S L) :
    EqualForm R R' x x := by
  cases x
  · exact .short (h _)
  · exact .long (h' _)

theorem equalForm_trans {S L : Type} {R : S → S → Prop} {R' : L → L → Prop} (h : ∀ x y z, R x y → R y z → R x z)
    (h' : ∀ x y z, R' x y → R' y z → R' x z) {x y z : ShortOrLong S L} (h1 : EqualForm R R' x y) (h2 : EqualForm R R' y z) :
    EqualForm R R' x z := by
  cases h1 with
  | short h1 => cases h2 with
    | short h2 => exact .short (h _ _ _ h1 h2)
  | long h1 => cases h2 with
    | long h2 => exact .long (h' _ _ _ h1 h2)

theorem equalShortVolume_refl (x : ShortVolume) : EqualShortVolume x x := by
  refine ⟨rfl, optionRel_refl (fun o => ⟨?_, rfl, rfl⟩) _⟩
  cases o.source
  · exact .hostPath rfl
  · exact .volume

theorem equalShortVolume_trans {x y z : ShortVolume} (h : EqualShortVolume x y) (h' : EqualShortVolume y z) : EqualShortVolume x z := by
  refine ⟨h.1.trans h'.1, optionRel_trans (fun x y z g g' => ⟨?_, g.2.1.trans g'.2.1, g.2.2.trans g'.2.2⟩) h.2 h'.2⟩
  obtain ⟨s, r, l⟩ := x
  obtain ⟨s', r', l'⟩ := y
  obtain ⟨s'', r'', l''⟩ := z
  have g := g.1
  have g' := g'.1
  dsimp only at g g' ⊢
  cases g with
  | hostPath h1 => cases g' with
    | hostPath h2 => exact .hostPath (h1.trans h2)
  | volume => cases g' with
    | volume => exact .volume

/-- The items of a set whose items turn into some others. -/
theorem turns_set {α : Type} (e : RustEq α) {c : Codec α} {g : Content → List Content} {h : α → List α}
    (hr : ∀ x : α, RustEq.eq x x = true) (ht : ∀ x y z : α, RustEq.eq x y = true → RustEq.eq y z = true → RustEq.eq x z = true)
    (hf : ∀ x y, RustEq.eq x y = true → ∀ z ∈ h x, ∃ w ∈ h y, RustEq.eq z w = true)
    (t : ∀ v x, c.de v = .ok x → readAll c.de (g v) = .ok (h x)) (vs : List Content) (l : IndexSet α)
    (hl : (Codecs.set c).de (.seq vs) = .ok l) :
    (Codecs.set c).de (.seq (vs.flatMap g)) = .ok (IndexSet.collectNew (l.flatMap h)) := by
  have app : ∀ (vs ws : List Content) (l m : List α), readAll c.de vs = .ok l → readAll c.de ws = .ok m →
      readAll c.de (vs ++ ws) = .ok (l ++ m) := by
    intro vs
    induction vs with
    | nil => intro ws l m h1 h2; obtain rfl : [] = l := by simpa [readAll] using h1
             simpa using h2
    | cons v vs ih =>
      intro ws l m h1 h2
      simp only [readAll, Outcome.bind_eq_ok, Outcome.map_eq_ok] at h1
      obtain ⟨x, h3, xs, h4, rfl⟩ := h1
      simp [readAll, h3, ih _ _ _ h4 h2]
  have all : ∀ (vs : List Content) (l : List α), readAll c.de vs = .ok l → readAll c.de (vs.flatMap g) = .ok (l.flatMap h) := by
    intro vs
    induction vs with
    | nil => intro l h1; obtain rfl : [] = l := by simpa [readAll] using h1
             rfl
    | cons v vs ih =>
      intro l h1
      simp only [readAll, Outcome.bind_eq_ok, Outcome.map_eq_ok] at h1
      obtain ⟨x, h3, xs, h4, rfl⟩ := h1
      rw [List.flatMap_cons, List.flatMap_cons]
      exact app _ _ _ _ (t v x h3) (ih xs h4)
  simp only [Codecs.set, Outcome.map_eq_ok] at hl ⊢
  obtain ⟨l, h1, rfl⟩ := hl
  exact ⟨_, all vs l h1, (collectNew_flatMap e e hr ht hf l).symm⟩

theorem flatMap_one {α β : Type} (f : α → β) (l : List α) : l.flatMap (fun x => [f x]) = l.map f := by
  induction l with
  | nil => rfl
  | cons x l ih => rw [List.flatMap_cons, ih]; rfl

theorem turns_volumes {E : Env} [ValueEqOk E] : Turns (Structs.volumes E) longVolumes
    (fun l => @IndexSet.collectNew _ (Structs.volumesEq E) ((Structs.volumesOfShort l).map .long)) := by
  intro v l hl
  obtain ⟨vs, rfl⟩ : ∃ vs, v = .seq vs := by cases v <;> simp [Structs.volumes, Codecs.set] at hl ⊢
  have same : ∀ {x y : ShortOrLong ShortVolume Structs.MountOf}, (Structs.volumesEq E).eq x y = true ↔
      EqualForm EqualShortVolume (EqualMount E) x y := eq_of_same _ _
  have h := @turns_set _ (Structs.volumesEq E) (shortOrLong shortVolume Structs.mount) (fun v => [longVolume v])
    (fun x => [Longhand.long Structs.mountOfShort x])
    (fun x => same.2 (equalForm_refl equalShortVolume_refl equalMount_refl x))
    (fun x y z h1 h2 => same.2 (equalForm_trans (R := EqualShortVolume) (R' := EqualMount E) (fun _ _ _ => equalShortVolume_trans) (fun _ _ _ => equalMount_trans)
      (same.1 h1) (same.1 h2)))
    (by
      intro x y h z hz
      obtain rfl : z = _ := by simpa using hz
      refine ⟨_, List.mem_singleton.2 rfl, same.2 (EqualForm.long ?_)⟩
      cases same.1 h with
      | short h' => exact mountOfShort_equal h'
      | long h' => exact h')
    (by
      intro v x h
      simp [readAll, turns_volumeItem v x h])
    vs l hl
  have e1 : vs.flatMap (fun v => [longVolume v]) = vs.map longVolume := flatMap_one _ _
  have e2 : l.flatMap (fun x => [Longhand.long Structs.mountOfShort x]) = (Structs.volumesOfShort l).map .long := by
    rw [flatMap_one, Structs.volumesOfShort, List.map_map]
    rfl
  rw [e1, e2] at h
  exact h

/-! ### Ports -/

theorem shortPort_ok {E : Env} {v : Content} {x : ShortPort E.ip.Ty} (h : (shortPort E).de v = .ok x) : ShortPortOk x := by
  rw [Denotes.iff (c := shortPort E) (m := Schemas.shortPort E)] at h
  rcases h with ⟨n, h, rfl⟩ | ⟨s, _, h⟩
  · exact ⟨⟨⟨h.2, fun _ h => by cases h⟩, fun _ h => by cases h⟩, fun _ h => by cases h⟩
  · cases h with
    | ranges h1 h2 => exact ⟨shortRangesText_ok h1, protocolSuffix_ok h2⟩
    | address _ _ h1 _ h2 => exact ⟨shortRangesText_ok h1, protocolSuffix_ok h2⟩

theorem port_read {E : Env} {t : Nat} {host : Option Nat} {ip : Option E.ip.Ty} {p : Option Protocol} [hE : EnvOk E] (h1 : t ≤ 65535)
    (h2 : ∀ h, host = some h → h ≤ 65535) (h3 : ∀ q, p = some q → ProtocolOk q) :
    (struct (Structs.port E)).de (mappingOf (("target", .u64 t) ::
      (optional "published" (host.map fun h => .u64 h) ++ optional "host_ip" (ip.map fun ip => .str (E.ip.show ip)) ++
        optional "protocol" (p.map fun | .tcp => asText "tcp" | .udp => asText "udp" | .other s => .str s)))) =
      .ok (none, t, host.map Range.ofU16, ip, p, none, none, [], ()) := by
  have r1 : u16.de (.u64 t) = .ok t := Lawful.read (c := u16) t h1
  have r2 : ∀ h, host = some h → (option Codecs.range).de (.u64 h) = .ok (some (Range.ofU16 h)) := by
    intro h hh
    have := h2 h hh
    simp [option, Codecs.range, deserializeFromStrOrU16, u16Max, this]
  have r3 : ∀ a, (option (foreign E.ip)).de (.str (E.ip.show a)) = .ok (some a) := by
    intro a
    simp [option, foreign, text, hE.ip a]
  have r4 : ∀ q, p = some q → (option Codecs.protocol).de (match q with | .tcp => asText "tcp" | .udp => asText "udp" | .other s => .str s) =
      .ok (some q) := by
    intro q hq
    have := h3 q hq
    have h : Codecs.protocol.de (Codecs.protocol.ser q) = .ok q := Lawful.read q this
    cases q <;> simp [option, Codecs.protocol, text, Protocol.asStr, asText] at h ⊢ <;> exact h
  have rest : ∀ es : List (Str × Content), (∀ e ∈ es, e.1 ∈ portKeys) → StandsFor portKeys es [extensions] ([], ()) := by
    intro es h
    refine ⟨?_, trivial⟩
    have : es.filter (fun e => e.1 ∉ portKeys) = [] := by
      rw [List.filter_eq_nil_iff]
      intro e he
      simp [h e he]
    dsimp only [extensions, entriesFor]
    rw [this]
    rfl
  cases host <;> cases ip <;> cases p <;>
    refine struct_mappingOf ⟨.inr ⟨by simp [given, Longhand.optional], rfl⟩, .inl ⟨.u64 t, by simp [given, Longhand.optional], r1⟩, ?_, ?_, ?_,
      .inr ⟨by simp [given, Longhand.optional], rfl⟩, .inr ⟨by simp [given, Longhand.optional], rfl⟩,
      (rest _ (by simp [Longhand.optional, portKeys])).1, trivial⟩
  all_goals first
    | exact .inr ⟨by simp [given, Longhand.optional], rfl⟩
    | exact .inl ⟨_, by simp [given, Longhand.optional], r2 _ rfl⟩
    | exact .inl ⟨_, by simp [given, Longhand.optional], r3 _⟩
    | exact .inl ⟨_, by simp [given, Longhand.optional], r4 _ rfl⟩

/-- The port at a place of a range. -/
def portAt (E : Env) (p : ShortPort E.ip.Ty) (i : Nat) : Record (Structs.port E) :=
  (none, p.ranges.container.start + i, (p.ranges.host.map (·.start + i)).map Range.ofU16, p.hostIp, p.protocol, none, none, [], ())

theorem port_long {E : Env} [EnvOk E] {p : ShortPort E.ip.Ty} (h : ShortPortOk p) {i : Nat} (hi : i < portCount p.ranges.container) :
    (struct (Structs.port E)).de (Longhand.port E p i) = .ok (portAt E p i) := by
  obtain ⟨⟨⟨h1, h2⟩, h3⟩, h4⟩ := h
  have last : ∀ r : Range, PortNumbers r → i < portCount r → r.start + i ≤ 65535 := by
    intro r ⟨g1, g2⟩ g3
    unfold portCount lastPort at g3
    cases he : r.end with
    | none => rw [he] at g3; simp at g3; omega
    | some e => have := g2 e he; rw [he] at g3; simp at g3; omega
  have := port_read (E := E) (t := p.ranges.container.start + i) (host := p.ranges.host.map (·.start + i)) (ip := p.hostIp) (p := p.protocol)
    (last _ ⟨h1, h2⟩ hi) (by
      intro n hn
      obtain ⟨r, hr, rfl⟩ := Option.map_eq_some_iff.1 hn
      obtain ⟨g1, -, -, g2⟩ := h3 r hr
      exact last r g1 (by omega)) h4
  rw [Option.map_map] at this
  exact this

theorem turns_portItem {E : Env} [EnvOk E] {v : Content} {x : ShortOrLong (ShortPort E.ip.Ty) (Record (Structs.port E))}
    (hx : (shortOrLong (shortPort E) (struct (Structs.port E))).de v = .ok x) :
    readAll (shortOrLong (shortPort E) (struct (Structs.port E))).de (longPort E v) = .ok
      ((match x with
        | .short p => Structs.portsOfShort E p
        | .long p => [p]).map .long) := by
  cases v <;> simp only [shortOrLong, Outcome.map_eq_ok] at hx <;> obtain ⟨y, h1, rfl⟩ := hx
  case map es =>
    have h2 : (shortPort E).de (.map es) = .err () := rfl
    simp [longPort, h2, readAll, shortOrLong, h1]
  all_goals
    have hok := shortPort_ok h1
    have hb : Balanced y.ranges := fun h hh => (hok.1.2 h hh).2.2.2
    have hp : Structs.portsOfShort E y = (List.range (portCount y.ranges.container)).map (portAt E y) := by
      rw [Structs.portsOfShort, shortRanges_toList hb, List.map_map]
      rfl
    simp only [longPort, h1, Longhand.ports, hp]
    have : ∀ l : List Nat, (∀ i ∈ l, i < portCount y.ranges.container) →
        readAll (shortOrLong (shortPort E) (struct (Structs.port E))).de (l.map (Longhand.port E y)) =
          .ok ((l.map (portAt E y)).map .long) := by
      intro l
      induction l with
      | nil => intro _; rfl
      | cons i l ih =>
        intro h
        obtain ⟨h2, h3⟩ := List.forall_mem_cons.1 h
        have h4 := port_long hok h2
        have h5 : (shortOrLong (shortPort E) (struct (Structs.port E))).de (Longhand.port E y i) =
            ((struct (Structs.port E)).de (Longhand.port E y i)).map .long := rfl
        rw [List.map_cons, readAll, h5, h4]
        rw [Outcome.map_ok, Outcome.bind_ok, ih h3, Outcome.map_ok, List.map_cons, List.map_cons]
    exact this _ fun i hi => List.mem_range.1 hi

theorem turns_ports {E : Env} [EnvOk E] [ValueEqOk E] : Turns (Structs.ports E) (longPorts E)
    (fun l => @IndexSet.collectNew _ (Structs.portsEq E) ((Structs.portsIntoLong E l).map .long)) := by
  intro v l hl
  obtain ⟨vs, rfl⟩ : ∃ vs, v = .seq vs := by cases v <;> simp [Structs.ports, Codecs.set] at hl ⊢
  have same : ∀ {x y : ShortOrLong (ShortPort E.ip.Ty) (Record (Structs.port E))}, (Structs.portsEq E).eq x y = true ↔
      EqualForm Eq (EqualPort E) x y := eq_of_same _ _
  let F : ShortOrLong (ShortPort E.ip.Ty) (Record (Structs.port E)) → List (Record (Structs.port E))
    | .short p => Structs.portsOfShort E p
    | .long p => [p]
  have h := @turns_set _ (Structs.portsEq E) (shortOrLong (shortPort E) (struct (Structs.port E))) (longPort E) (fun x => (F x).map .long)
    (fun x => same.2 (equalForm_refl (fun _ => rfl) equalPort_refl x))
    (fun x y z h1 h2 => same.2 (equalForm_trans (R := Eq) (R' := EqualPort E) (fun _ _ _ => Eq.trans) (fun _ _ _ => equalPort_trans)
      (same.1 h1) (same.1 h2)))
    (by
      intro x y h z hz
      cases same.1 h with
      | short h' => exact ⟨z, h' ▸ hz, same.2 (equalForm_refl (fun _ => rfl) equalPort_refl z)⟩
      | long h' =>
        obtain rfl : z = _ := by simpa [F] using hz
        exact ⟨_, List.mem_singleton.2 rfl, same.2 (EqualForm.long h')⟩)
    (by
      intro v x h
      exact turns_portItem h)
    vs l hl
  have e : l.flatMap (fun x => (F x).map (ShortOrLong.long (S := ShortPort E.ip.Ty))) = (Structs.portsIntoLong E l).map .long := by
    rw [Structs.portsIntoLong, List.map_flatMap]
    rfl
  rw [e] at h
  exact h

end Proofs
