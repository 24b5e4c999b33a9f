import Verif.Proofs.Image
import Verif.Proofs.Path

/- Properties C28–C34 and C66: images. -/

namespace Props
open Rust Compose Compose.Image Spec Proofs

/-! ### C28 names -/

/-- C28: `Name::new` accepts exactly the grammar of image names, and keeps the text. -/
theorem C28_name_new (s : Str) : (∃ n, Image.Name.new s = .ok n ∧ n.inner = s) ↔ ImageName s := by
  simp only [nameNew_iff]
  constructor
  · rintro ⟨n, ⟨h, _⟩, _⟩; exact h
  · intro h; exact ⟨_, ⟨h, rfl⟩, rfl⟩

/-- C28: `Name::new` has no other successes. -/
theorem C28_name_new_text (s : Str) (n : Image.Name) (h : Image.Name.new s = .ok n) : n.inner = s ∧ ImageName s := by
  obtain ⟨h', rfl⟩ := nameNew_iff.1 h
  exact ⟨rfl, h'⟩

theorem registryOf_prefix (name : Str) : RegPrefix (registryOf name) name := by
  intro r hr
  obtain ⟨_, _, h | ⟨rest, h⟩⟩ := registryOf_eq_some.1 hr
  · exact ⟨[], by simpa using h⟩
  · exact ⟨_, h⟩

/-- C28: the registry of a name is its first part when that contains a dot, and there is none otherwise; asking
for it never panics. -/
theorem C28_name_registry (s : Str) (n : Image.Name) (h : Image.Name.new s = .ok n) :
    ∃ r, n.registry = some r ∧ ∀ x, r = some x ↔ RegistryOf s x := by
  obtain ⟨_, rfl⟩ := nameNew_iff.1 h
  refine ⟨registryOf s, ?_, fun x => registryOf_eq_some⟩
  have := mkImage_registry none (registryOf_prefix s)
  simpa [Image.registry, Image.Name.registry, mkImage, suffix] using this

example : ∃ n, Image.Name.new "quay.io:443/podman/hello".toList = .ok n ∧ n.registry = some (some "quay.io:443".toList) :=
  ⟨_, rfl, rfl⟩

/-- C28: a single `/`-free part is accepted iff it is a name part, or a registry. -/
theorem C28_part (s : Str) (hs : '/' ∉ s) : (∃ n, Image.Name.new s = .ok n) ↔ FirstPart s := by
  simp only [nameNew_iff, imageName_iff, split_of_not_mem hs]
  constructor
  · rintro ⟨_, ⟨f, r, h, hf, _⟩, _⟩
    simp only [List.cons.injEq] at h
    obtain ⟨rfl, _⟩ := h
    exact hf
  · intro h
    exact ⟨_, ⟨s, [], rfl, h, by simp⟩, rfl⟩

example : Image.Name.new "quay.io:443/podman__x/hel--lo".toList
    = .ok ⟨"quay.io:443/podman__x/hel--lo".toList, some 11⟩ := by rfl
example : ImageName "quay.io:443/podman__x/hel--lo".toList :=
  (C28_name_new_text _ ⟨_, some 11⟩ rfl).2
example : ¬ ImageName "podman/a___b".toList := by
  rw [← C28_name_new]; rintro ⟨n, h, _⟩
  have : Image.Name.new "podman/a___b".toList = .error .multipleSeparators := by rfl
  rw [this] at h; simp at h
example : ('/' ∉ "a.b-c".toList) ∧ ∃ n, Image.Name.new "a.b-c".toList = .ok n := ⟨by decide, _, rfl⟩

/-! ### C29 tags and digests -/

/-- C29: `Tag::new` accepts exactly `[a-zA-Z0-9._-]{1,128}` and keeps the text. -/
theorem C29_tag_new (s t : Str) : tagNew s = .ok t ↔ ImageTag s ∧ t = s := tagNew_iff

/-- C29: `Digest::new` accepts exactly `algorithm:encoded` and keeps the text. -/
theorem C29_digest_new (s d : Str) : digestNew s = .ok d ↔ ImageDigest s ∧ d = s := digestNew_iff

/-- C29: which error a tag gives: the first bad character, else emptiness, else the length. -/
theorem C29_tag_error (s : Str) :
    (∀ c, tagNew s = .error (.character c) ↔
      ∃ a b, s = a ++ c :: b ∧ (∀ x ∈ a, x ∈ Re.alnum ++ "._-".toList) ∧ c ∉ Re.alnum ++ "._-".toList) ∧
    (tagNew s = .error .empty ↔ s = []) ∧
    (tagNew s = .error .length ↔ 128 < s.length ∧ ∀ x ∈ s, x ∈ Re.alnum ++ "._-".toList) := by
  unfold tagNew
  cases hf : s.find? (fun c => !tagChar c) with
  | some c =>
    have hn := List.find?_some hf
    have hm := List.mem_of_find?_eq_some hf
    have hc : c ∉ Re.alnum ++ "._-".toList := fun h => by
      have := tagChar_iff.2 h; simp [this] at hn
    obtain ⟨as, bs, hs, hb⟩ := (List.find?_eq_some_iff_append.1 hf).2
    have hb' : ∀ x ∈ as, x ∈ Re.alnum ++ "._-".toList := fun x hx => tagChar_iff.1 (by simpa using hb x hx)
    refine ⟨?_, ?_, ?_⟩
    · intro d
      simp only [Except.error.injEq, TagError.character.injEq]
      constructor
      · rintro rfl; exact ⟨as, bs, hs, hb', hc⟩
      · rintro ⟨a, b, h, ha, hd⟩
        have : s.find? (fun c => !tagChar c) = some d := by
          rw [List.find?_eq_some_iff_append]
          refine ⟨by simpa using fun h => hd (tagChar_iff.1 h), a, b, h, fun x hx => ?_⟩
          simpa using tagChar_iff.2 (ha x hx)
        rw [hf] at this
        simpa using this
    · simp only [Except.error.injEq, reduceCtorEq, false_iff]; rintro rfl; simp at hm
    · simp only [Except.error.injEq, reduceCtorEq, false_iff]; rintro ⟨_, h⟩; exact hc (h c hm)
  | none =>
    have h : ∀ c ∈ s, c ∈ Re.alnum ++ "._-".toList := fun c hc => tagChar_iff.1 (by
      have := List.find?_eq_none.1 hf c hc; simpa using this)
    have hb : byteLen s = s.length := byteLen_of_ascii fun c hc => by
      have : ∀ c ∈ Re.alnum ++ "._-".toList, c.toNat < 128 := by decide
      exact this c (h c hc)
    simp only [hb, List.isEmpty_iff]
    refine ⟨?_, ?_, ?_⟩
    · intro d
      constructor
      · intro hd; split at hd
        · simp at hd
        · split at hd <;> simp at hd
      · rintro ⟨a, b, rfl, _, hd⟩; exact absurd (h d (by simp)) hd
    · by_cases he : s = []
      · simp [he]
      · simp only [he, if_false, iff_false]; split <;> simp
    · by_cases he : s = []
      · simp [he]
      · simp only [he, if_false]
        by_cases hl : 128 < s.length
        · simp only [hl, if_true, true_and, gt_iff_lt]; simpa using h
        · simp [hl]

example : ImageTag "v1.2-rc_3".toList := ((C29_tag_new _ _).1 (by rfl : tagNew _ = .ok "v1.2-rc_3".toList)).1
example : tagNew (List.replicate 129 'a') = .error .length :=
  (C29_tag_error _).2.2.2 ⟨by simp, fun x hx => by rw [List.eq_of_mem_replicate hx]; decide⟩
example : ImageDigest "sha256+b64:Zm9v_-=".toList :=
  ((C29_digest_new _ _).1 (by rfl : digestNew _ = .ok "sha256+b64:Zm9v_-=".toList)).1
example : digestNew "sha256--x:ab".toList = .error .algorithmSeparators := by rfl

/-! ### C30, C31 parsing -/

theorem splitOnce_slash_cases (name : Str) :
    ('/' ∉ name ∧ splitOnce '/' name = none ∧ split '/' name = [name]) ∨
    ∃ f r, name = f ++ '/' :: r ∧ '/' ∉ f ∧ splitOnce '/' name = some (f, r) ∧ split '/' name = f :: split '/' r := by
  cases h : splitOnce '/' name with
  | none =>
    have := splitOnce_eq_none.1 h
    exact .inl ⟨this, rfl, split_of_not_mem this⟩
  | some q =>
    obtain ⟨f, r⟩ := q
    obtain ⟨rfl, hf⟩ := splitOnce_eq_some.1 h
    exact .inr ⟨f, r, rfl, hf, rfl, split_append_sep hf⟩

theorem nameParts_registry (name : Str) : (nameParts name).1 = registryOf name := by
  unfold nameParts registryOf
  rcases splitOnce_slash_cases name with ⟨_, h1, h2⟩ | ⟨f, r, _, _, h1, h2⟩
  · rw [h1, h2]; simp only; split <;> rfl
  · rw [h1, h2]; simp only; split <;> rfl

theorem partsOf_name (name : Str) (t : Option TagOrDigest) : (partsOf name t).name = name := by
  unfold partsOf nameParts
  rcases splitOnce_slash_cases name with ⟨_, h1, h2⟩ | ⟨f, r, h, _, h1, h2⟩
  · rw [h1]
    by_cases hd : '.' ∈ name <;> simp [hd, ImageParts.name]
  · rw [h1]
    by_cases hd : '.' ∈ f <;> simp [hd, ImageParts.name, h]

theorem partsOf_hasName (name : Str) (t : Option TagOrDigest) :
    (partsOf name t).registry.isSome ∨ (partsOf name t).path.isSome := by
  unfold partsOf nameParts
  rcases splitOnce_slash_cases name with ⟨_, h1, h2⟩ | ⟨f, r, h, _, h1, h2⟩
  · rw [h1]
    by_cases hd : '.' ∈ name <;> simp [hd]
  · rw [h1]
    by_cases hd : '.' ∈ f <;> simp [hd]

theorem ImageParts_regPrefix (p : ImageParts) : RegPrefix p.registry p.name := by
  intro r hr
  unfold ImageParts.name
  rw [hr]
  cases p.path with
  | none => exact ⟨[], by simp⟩
  | some x => exact ⟨'/' :: x, rfl⟩

/-- The stored form of an image showing given parts. -/
theorem shows_iff (i : Image) (p : ImageParts) :
    Shows i p ↔ i = mkImage p.registry p.name p.label ∧ (p.registry.isSome ∨ p.path.isSome) := by
  constructor
  · rintro ⟨h0, h1, h2, h3, h4, h5, h6⟩
    refine ⟨?_, h0⟩
    obtain ⟨inner, re, st⟩ := i
    simp only [Image.asStr, ImageParts.text] at h1
    subst h1
    unfold mkImage
    congr 1
    · cases re with
      | none => simp [Image.registry, optSliceTo] at h2; rw [← h2]; rfl
      | some n =>
        simp only [Image.registry, optSliceTo, sliceTo, Option.map_map, Option.map_eq_some_iff] at h2
        obtain ⟨⟨a, b⟩, hab, he⟩ := h2
        obtain ⟨_, rfl⟩ := splitAtByte_eq_some.1 hab
        simp only [Function.comp_apply] at he
        rw [← he]; rfl
    · match st with
      | none => simp [Image.asTagOrDigest] at h6; rw [← h6]; rfl
      | some (.tag n) =>
        simp only [Image.asTagOrDigest, sliceFrom, Option.map_map, Option.map_eq_some_iff] at h6
        obtain ⟨⟨a, b⟩, hab, he⟩ := h6
        obtain ⟨hi, rfl⟩ := splitAtByte_eq_some.1 hab
        simp only [Function.comp_apply] at he
        rw [← he] at hi ⊢
        have : (p.name ++ [':']) ++ b = a ++ b := by rw [← hi]; simp [suffix]
        rw [← List.append_cancel_right this]
        simp [TagOrDigest.asStart, byteLen_sep]
      | some (.digest n) =>
        simp only [Image.asTagOrDigest, sliceFrom, Option.map_map, Option.map_eq_some_iff] at h6
        obtain ⟨⟨a, b⟩, hab, he⟩ := h6
        obtain ⟨hi, rfl⟩ := splitAtByte_eq_some.1 hab
        simp only [Function.comp_apply] at he
        rw [← he] at hi ⊢
        have : (p.name ++ ['@']) ++ b = a ++ b := by rw [← hi]; simp [suffix]
        rw [← List.append_cancel_right this]
        simp [TagOrDigest.asStart, byteLen_sep]
  · rintro ⟨rfl, h0⟩
    exact ⟨h0, rfl, mkImage_registry _ (ImageParts_regPrefix p), mkImage_name _ _ _, mkImage_tag _ _ _,
      mkImage_digest _ _ _, mkImage_asTagOrDigest _ _ _⟩

theorem shows_partsOf (name : Str) (t : Option TagOrDigest) :
    Shows (mkImage (registryOf name) name t) (partsOf name t) := by
  rw [shows_iff, partsOf_name]
  exact ⟨by simp [partsOf, nameParts_registry], partsOf_hasName name t⟩

/-- C30: a parsed image prints as the input, and its getters return a valid name, its registry, and a valid tag
or digest (never both), which make up the input. -/
theorem C30_parse_parts (s : Str) (i : Image) (h : Image.parse s = .ok i) :
    i.asStr = s ∧ ∃ name label, s = name ++ suffix label ∧ ImageName name ∧ ValidTod label ∧
      Shows i (partsOf name label) := by
  obtain ⟨name, t, rfl, hN, hT, _, rfl⟩ := parse_iff.1 h
  exact ⟨rfl, name, t, rfl, hN, hT, shows_partsOf name t⟩

example : ∃ i, Image.parse "podman/hello@sha256:ab".toList = .ok i ∧ i.registry = some none ∧
    i.name = some "podman/hello".toList ∧ i.tag = some none ∧ i.digest = some (some "sha256:ab".toList) :=
  ⟨_, rfl, rfl, rfl, rfl, rfl⟩

/-- C30: the tag and the digest are not both present. -/
theorem C30_not_both (s : Str) (i : Image) (h : Image.parse s = .ok i) :
    i.tag = some none ∨ i.digest = some none := by
  obtain ⟨_, name, t, _, _, _, hs⟩ := C30_parse_parts s i h
  rw [hs.tag, hs.digest]
  match t with
  | none => simp [partsOf]
  | some (.tag _) => simp [partsOf]
  | some (.digest _) => simp [partsOf]

example : ∃ i, Image.parse "quay.io:443/podman/hello:v1".toList = .ok i ∧ i.tag = some (some "v1".toList) ∧
    i.registry = some (some "quay.io:443".toList) := ⟨_, rfl, rfl, rfl⟩

/-- C31: putting a valid name and a valid tag or digest together gives a text that parses to exactly those
parts, unless the name is a lone registry with a port and there is no tag. -/
theorem C31_parse_text (name : Str) (label : Option TagOrDigest) (hN : ImageName name) (hT : ValidTod label)
    (hP : PortLast name → isTag label) :
    ∃ i, Image.parse (name ++ suffix label) = .ok i ∧ Shows i (partsOf name label) :=
  ⟨_, parse_iff.2 ⟨name, label, rfl, hN, hT, hP, rfl⟩, shows_partsOf name label⟩

example : ImageName "quay.io:443/x".toList ∧ ValidTod (some (.digest "sha256:ab".toList)) :=
  ⟨(C28_name_new_text _ _ (rfl : Image.Name.new "quay.io:443/x".toList = .ok ⟨_, some 11⟩)).2,
    ((C29_digest_new "sha256:ab".toList "sha256:ab".toList).1 rfl).1⟩

/-- C31: a text parses, and to which image, exactly as `ImageText` says. -/
theorem C31_accepts (s : Str) (i : Image) : Image.parse s = .ok i ↔ ImageText s i := by
  rw [parse_iff]
  constructor
  · rintro ⟨name, t, h1, h2, h3, h4, rfl⟩; exact ⟨name, t, h1, h2, h3, h4, shows_partsOf name t⟩
  · rintro ⟨name, t, h1, h2, h3, h4, h5⟩
    refine ⟨name, t, h1, h2, h3, h4, ?_⟩
    rw [((shows_iff _ _).1 h5).1, ((shows_iff _ _).1 (shows_partsOf name t)).1]

example : ImageText "quay.io:443/podman/hello:v1".toList ⟨"quay.io:443/podman/hello:v1".toList, some 11, some (.tag 25)⟩ :=
  (C31_accepts ..).1 (by rfl)

/-- C31: the texts that parse are exactly those. -/
theorem C31_accepted (s : Str) : (∃ i, Image.parse s = .ok i) ↔
    ∃ name label, s = name ++ suffix label ∧ ImageName name ∧ ValidTod label ∧ (PortLast name → isTag label) := by
  simp only [parse_iff]
  constructor
  · rintro ⟨_, name, t, h1, h2, h3, h4, _⟩; exact ⟨name, t, h1, h2, h3, h4⟩
  · rintro ⟨name, t, h1, h2, h3, h4⟩; exact ⟨_, name, t, h1, h2, h3, h4, rfl⟩

example : (∃ i, Image.parse "quay.io:443/x@sha256:ab".toList = .ok i) ∧
    ¬ ∃ i, Image.parse "quay.io:443@sha256:ab".toList = .ok i :=
  ⟨⟨_, rfl⟩, by rintro ⟨i, h⟩; cases h⟩

/-- C31: the excluded case is needed: a lone registry with a port, without tag, is read back with the port as its
tag when the port is a valid tag (that is, has no `+`). -/
theorem C31_port_read_as_tag (host port : Str) (n : Nat) (hd : '.' ∈ host) (hh : NamePart host)
    (hp : UInt u16Max port n) (ht : ImageTag port) :
    ImageName (host ++ ':' :: port) ∧
    ∃ i, Image.parse (host ++ ':' :: port) = .ok i ∧ Shows i (partsOf host (some (.tag port))) := by
  have hR : Registry host := ⟨hd, .inl hh⟩
  have hNH : ImageName host :=
    imageName_iff.2 ⟨host, [], split_of_not_mem hR.not_slash, .inl hR, by simp⟩
  have hR2 : Registry (host ++ ':' :: port) := ⟨by simp [hd], .inr ⟨host, port, n, rfl, hh, hp⟩⟩
  exact ⟨imageName_iff.2 ⟨_, [], split_of_not_mem hR2.not_slash, .inl hR2, by simp⟩,
    C31_parse_text host (some (.tag port)) hNH ht (fun _ => trivial)⟩

example : ImageName "quay.io:443".toList ∧ ValidTod (some (.tag "latest".toList)) ∧
    (PortLast "quay.io:443".toList → isTag (some (.tag "latest".toList))) :=
  ⟨(C28_name_new_text _ ⟨_, some 11⟩ rfl).2,
    ((C29_tag_new _ _).1 (by rfl : tagNew _ = .ok "latest".toList)).1, fun _ => trivial⟩
example : Image.parse "quay.io:443".toList = .ok ⟨"quay.io:443".toList, some 7, some (.tag 8)⟩ := by rfl

/-! ### C32, C34 editing -/

theorem edit_shows (i : Image) (p : ImageParts) (e : Edit) (hi : Shows i p) (hv : e.Valid) (hs : e.Safe p) :
    ∃ i', e.run i = some i' ∧ Shows i' (e.apply p) := by
  obtain ⟨rfl, hne⟩ := (shows_iff _ _).1 hi
  clear hi
  have tod : ∀ t, (mkImage p.registry p.name p.label).setTagOrDigest t = some (mkImage p.registry p.name t) :=
    mkImage_setTagOrDigest _ _ _
  have tod' : ∀ t, Shows (mkImage p.registry p.name t) { p with label := t } := fun t => by
    rw [shows_iff]; exact ⟨rfl, hne⟩
  match e, hv, hs with
  | .setTag t, _, _ => exact ⟨_, tod _, tod' _⟩
  | .setDigest t, _, _ => exact ⟨_, tod _, tod' _⟩
  | .setTagOrDigest t, _, _ => exact ⟨_, tod _, tod' _⟩
  | .setName n, hv, _ =>
    obtain ⟨_, hn⟩ := nameNew_iff.1 hv
    have hn' : n = ⟨n.inner, (registryOf n.inner).map byteLen⟩ := hn
    refine ⟨mkImage (registryOf n.inner) n.inner p.label, ?_, shows_partsOf _ _⟩
    show Image.setName _ n = _
    rw [hn']
    exact mkImage_setName _ _ _ _ _
  | .setRegistry (some n), hv, _ =>
    obtain ⟨reg, path, label⟩ := p
    match reg, path with
    | some r, some x => exact ⟨_, mkImage_setRegistry_replace r ('/' :: x) label n, (shows_iff _ _).2 ⟨rfl, by simp [Edit.apply]⟩⟩
    | some r, none =>
      have := mkImage_setRegistry_replace r [] label n
      simp only [List.append_nil] at this
      exact ⟨_, this, (shows_iff _ _).2 ⟨rfl, by simp [Edit.apply]⟩⟩
    | none, some x => exact ⟨_, mkImage_setRegistry_add x label n, (shows_iff _ _).2 ⟨rfl, by simp [Edit.apply]⟩⟩
    | none, none => simp at hne
  | .setRegistry none, _, hs =>
    obtain ⟨reg, path, label⟩ := p
    match reg, path with
    | some r, some x => exact ⟨_, mkImage_setRegistry_remove r x label, (shows_iff _ _).2 ⟨rfl, by simp [Edit.apply]⟩⟩
    | some r, none => simp [Edit.Safe] at hs
    | none, some x => exact ⟨_, rfl, (shows_iff _ _).2 ⟨rfl, by simp [Edit.apply]⟩⟩
    | none, none => simp at hne

theorem edits_show (es : List Edit) : ∀ (i : Image) (p : ImageParts), Shows i p → (∀ e ∈ es, e.Valid) →
    SafeEdits p es → ∃ i', runEdits i es = some i' ∧ Shows i' (es.foldl Edit.apply p) := by
  induction es with
  | nil => intro i p h _ _; exact ⟨i, rfl, h⟩
  | cons e es ih =>
    intro i p h hv hs
    obtain ⟨i1, h1, h2⟩ := edit_shows i p e h (hv e (by simp)) hs.1
    obtain ⟨i2, h3, h4⟩ := ih i1 _ h2 (fun x hx => hv x (by simp [hx])) hs.2
    refine ⟨i2, ?_, h4⟩
    simp only [runEdits, List.foldlM_cons, h1]
    exact h3

theorem safe_of_notRegistry (es : List Edit) (h : ∀ e ∈ es, e.NotRegistry) : ∀ p, SafeEdits p es := by
  induction es with
  | nil => intro p; trivial
  | cons e es ih =>
    intro p
    refine ⟨?_, ih (fun x hx => h x (by simp [hx])) _⟩
    have := h e (by simp)
    cases e <;> first | trivial | exact absurd this (by simp [Edit.NotRegistry])

/-- C32: after any sequence of `set_name`, `set_tag`, `set_digest`, `set_tag_or_digest` calls on a parsed image no
call and no getter panics, and the getters show the parts as last set: each call changes only its own part. -/
theorem C32_edits (s : Str) (i : Image) (h : Image.parse s = .ok i) (es : List Edit)
    (hv : ∀ e ∈ es, e.Valid) (hr : ∀ e ∈ es, e.NotRegistry) :
    ∃ name label, s = name ++ suffix label ∧ ImageName name ∧ ValidTod label ∧
      ∃ i', runEdits i es = some i' ∧ Shows i' (es.foldl Edit.apply (partsOf name label)) := by
  obtain ⟨_, name, label, h1, h2, h3, h4⟩ := C30_parse_parts s i h
  exact ⟨name, label, h1, h2, h3, edits_show es i _ h4 hv (safe_of_notRegistry es hr _)⟩

example : ∃ i i', Image.parse "quay.io/hello:v1".toList = .ok i ∧
    runEdits i [.setDigest (some "md5:0".toList), .setTag none] = some i' ∧ i'.asStr = "quay.io/hello".toList ∧
    Edit.Valid (.setDigest (some "md5:0".toList)) ∧ Edit.NotRegistry (.setTag none) :=
  ⟨_, _, rfl, rfl, rfl, fun x hx => by obtain rfl := Option.some.inj hx; rfl, trivial⟩

/-- C32, one call at a time, from any image whose getters show some parts (so also from an edited one). -/
theorem C32_edit (i : Image) (p : ImageParts) (hi : Shows i p) (e : Edit) (hv : e.Valid) (hr : e.NotRegistry) :
    ∃ i', e.run i = some i' ∧ Shows i' (e.apply p) := by
  refine edit_shows i p e hi hv ?_
  cases e <;> first | trivial | exact absurd hr (by simp [Edit.NotRegistry])

example : ∃ i p i', Shows i p ∧ Image.parse "quay.io/hello:v1".toList = .ok i ∧
    Edit.run i (.setTag (some "v2".toList)) = some i' ∧ i'.asStr = "quay.io/hello:v2".toList := by
  obtain ⟨-, _, _, -, -, -, h⟩ := C30_parse_parts "quay.io/hello:v1".toList _ rfl
  exact ⟨_, _, _, h, rfl, rfl, rfl⟩

/-- C32: setting the tag leaves the name and the registry alone, whatever was there before. -/
theorem C32_set_tag (i : Image) (p : ImageParts) (hi : Shows i p) (t : Option Str) (ht : ∀ x, t = some x → ImageTag x) :
    ∃ i', i.setTag t = some i' ∧ i'.tag = some t ∧ i'.digest = some none ∧ i'.name = i.name ∧
      i'.registry = i.registry := by
  obtain ⟨i', h1, h2⟩ := C32_edit i p hi (.setTag t) (fun x hx => tagNew_iff.2 ⟨ht x hx, rfl⟩) trivial
  refine ⟨i', h1, ?_, ?_, ?_, ?_⟩
  · rw [h2.tag]; cases t <;> rfl
  · rw [h2.digest]; cases t <;> rfl
  · rw [h2.name, hi.name]; rfl
  · rw [h2.registry, hi.registry]; rfl

example : ∃ i i', Image.parse "quay.io/hello@md5:0".toList = .ok i ∧ i.setTag (some "v2".toList) = some i' ∧
    i'.tag = some (some "v2".toList) ∧ i'.digest = some none ∧ i'.name = i.name := ⟨_, _, rfl, rfl, rfl, rfl, rfl⟩

/-- C32: setting the name leaves the tag and the digest alone. -/
theorem C32_set_name (i : Image) (p : ImageParts) (hi : Shows i p) (s : Str) (n : Image.Name)
    (hn : Image.Name.new s = .ok n) :
    ∃ i', i.setName n = some i' ∧ i'.name = some s ∧ i'.tag = i.tag ∧ i'.digest = i.digest ∧
      i'.registry = n.registry := by
  obtain ⟨hs, rfl⟩ := nameNew_iff.1 hn
  obtain ⟨i', h1, h2⟩ := C32_edit i p hi (.setName ⟨s, (registryOf s).map byteLen⟩) hn trivial
  refine ⟨i', h1, ?_, ?_, ?_, ?_⟩
  · rw [h2.name]; exact congrArg some (partsOf_name s p.label)
  · rw [h2.tag, hi.tag]; rfl
  · rw [h2.digest, hi.digest]; rfl
  · rw [h2.registry]
    have := mkImage_registry none (registryOf_prefix s)
    simp only [Image.registry, mkImage, suffix, List.append_nil] at this
    simp only [Edit.apply, partsOf, nameParts_registry, Image.Name.registry, this]

example : ∃ i i', Image.parse "quay.io/podman/hello@sha256:ab".toList = .ok i ∧
    runEdits i [.setTag (some "v1".toList), .setName ⟨"a/b".toList, none⟩, .setTag none,
      .setDigest (some "md5:0".toList)] = some i' ∧ i'.asStr = "a/b@md5:0".toList ∧
    i'.digest = some (some "md5:0".toList) ∧ i'.registry = some none := ⟨_, _, rfl, rfl, rfl, rfl, rfl⟩
example : Edit.Valid (.setName ⟨"a/b".toList, none⟩) ∧ Edit.Valid (.setTag (some "v1".toList)) :=
  ⟨rfl, fun x hx => by obtain rfl := Option.some.inj hx; rfl⟩

/-! ### C33 `from_parts` -/

/-- C33, the part that holds: without tag or digest, `from_parts` shows the parts of the name.  Missing: a tag or
digest, for which the property is false, see `C33_from_parts_false`. -/
theorem C33_from_parts_partial (s : Str) (n : Image.Name) (hn : Image.Name.new s = .ok n) :
    Shows (Image.fromParts n none) (partsOf s none) := by
  obtain ⟨_, rfl⟩ := nameNew_iff.1 hn
  have := shows_partsOf s none
  simpa [mkImage, suffix, Image.fromParts] using this

example : Shows (Image.fromParts ⟨"quay.io/podman".toList, some 7⟩ none) (partsOf "quay.io/podman".toList none) :=
  C33_from_parts_partial _ _ rfl

/-- C33 fails for every name and every tag or digest: the text is right, but asking the image for its tag or
digest panics, and its `name()` is the whole text. -/
theorem C33_from_parts_false (s : Str) (n : Image.Name) (hn : Image.Name.new s = .ok n) (t : TagOrDigest) :
    (Image.fromParts n (some t)).asStr = s ++ suffix (some t) ∧
    (Image.fromParts n (some t)).asTagOrDigest = none ∧
    ((Image.fromParts n (some t)).tag = none ∨ (Image.fromParts n (some t)).digest = none) ∧
    (Image.fromParts n (some t)).name = some (s ++ suffix (some t)) ∧
    ∀ p, ¬ Shows (Image.fromParts n (some t)) p := by
  obtain ⟨_, rfl⟩ := nameNew_iff.1 hn
  have hp : sliceFrom (s ++ suffix (some t)) (byteLen (s ++ suffix (some t)) + 1) = none := sliceFrom_past (by omega)
  have hto : sliceTo (s ++ suffix (some t)) (byteLen (s ++ suffix (some t))) = some (s ++ suffix (some t)) := by
    have := sliceTo_append (s ++ suffix (some t)) []
    simpa using this
  have h2 : (Image.fromParts ⟨s, (registryOf s).map byteLen⟩ (some t)).asTagOrDigest = none := by
    cases t <;> simp [Image.fromParts, Image.asTagOrDigest, TagOrDigest.asStart, pushToString_eq, hp]
  refine ⟨by simp [Image.fromParts, Image.asStr, pushToString_eq], h2, ?_, ?_, ?_⟩
  · cases t with
    | tag t => left; simp [Image.fromParts, Image.tag, TagOrDigest.asStart, pushToString_eq, hp]
    | digest t => right; simp [Image.fromParts, Image.digest, TagOrDigest.asStart, pushToString_eq, hp]
  · simp [Image.fromParts, Image.name, Image.nameEnd, asStart_intoInner, pushToString_eq, hto]
  · intro p hs
    have := hs.tagOrDigest
    rw [h2] at this
    simp at this

example : Image.Name.new "quay.io/podman/hello".toList = .ok ⟨"quay.io/podman/hello".toList, some 7⟩ := by rfl
example : (Image.fromParts ⟨"a/b".toList, none⟩ (some (.tag "v1".toList))).tag = none := by rfl

/-! ### C34 the registry -/

/-- C34, for every image and every call except removing a registry that is the whole name: setting or removing
the registry changes just the registry, nothing panics.  Missing: that exception, see `C34_set_registry_false`. -/
theorem C34_set_registry_partial (i : Image) (p : ImageParts) (hi : Shows i p) (r : Option Image.Name)
    (hr : ∀ n, r = some n → Image.Name.new n.inner = .ok n)
    (hs : r = none → ¬ (p.registry.isSome ∧ p.path = none)) :
    ∃ i', i.setRegistry r = some i' ∧ i'.registry = some (r.map (·.inner)) ∧ i'.tag = i.tag ∧
      i'.digest = i.digest ∧ Shows i' { p with registry := r.map (·.inner) } := by
  obtain ⟨i', h1, h2⟩ := edit_shows i p (.setRegistry r) hi
    (by cases r with
        | none => trivial
        | some n => exact hr n rfl)
    (by cases r with
        | none => exact hs rfl
        | some n => trivial)
  refine ⟨i', h1, h2.registry, ?_, ?_, h2⟩
  · rw [h2.tag, hi.tag]; rfl
  · rw [h2.digest, hi.digest]; rfl

example : ∃ i i', Image.parse "hello:v1".toList = .ok i ∧ i.setRegistry (some ⟨"quay.io".toList, none⟩) = some i' ∧
    i'.asStr = "quay.io/hello:v1".toList ∧ i'.registry = some (some "quay.io".toList) := ⟨_, _, rfl, rfl, rfl, rfl⟩

/-- C34, any sequence of all five kinds of calls, registry edits included. -/
theorem C34_edits_partial (s : Str) (i : Image) (h : Image.parse s = .ok i) (es : List Edit)
    (hv : ∀ e ∈ es, e.Valid) (hs : ∀ name label, s = name ++ suffix label → Shows i (partsOf name label) →
      SafeEdits (partsOf name label) es) :
    ∃ name label, s = name ++ suffix label ∧ ImageName name ∧ ValidTod label ∧
      ∃ i', runEdits i es = some i' ∧ Shows i' (es.foldl Edit.apply (partsOf name label)) := by
  obtain ⟨_, name, label, h1, h2, h3, h4⟩ := C30_parse_parts s i h
  exact ⟨name, label, h1, h2, h3, edits_show es i _ h4 hv (hs name label h1 h4)⟩

example : SafeEdits (partsOf "quay.io/hello".toList (some (.tag "v1".toList)))
    [.setRegistry none, .setTag none, .setRegistry (some ⟨"ghcr.io".toList, none⟩)] :=
  ⟨fun h => absurd h (by decide), trivial, trivial, trivial⟩

/-- C34 is false: for every image whose name is only a registry, removing the registry panics when there is no tag
or digest, and otherwise leaves an image whose `name()` panics. -/
theorem C34_set_registry_false (i : Image) (r : Str) (label : Option TagOrDigest) (hi : Shows i ⟨some r, none, label⟩) :
    match label with
    | none => i.setRegistry none = none
    | some t => ∃ i', i.setRegistry none = some i' ∧ i'.asStr = t.text ∧ i'.name = none := by
  obtain ⟨rfl, _⟩ := (shows_iff _ _).1 hi
  match label with
  | none =>
    have : sliceFrom r (byteLen r + 1) = none := sliceFrom_past (by omega)
    simp [Image.setRegistry, mkImage, ImageParts.name, suffix, replaceTo, this]
  | some (.tag t) =>
    have h1 : replaceTo (r ++ ':' :: t) (byteLen r + 1) [] = some t := by simp [replaceTo, sliceFrom_sep]
    refine ⟨⟨t, none, some (.tag 0)⟩, ?_, rfl, rfl⟩
    simp [Image.setRegistry, mkImage, ImageParts.name, suffix, h1, updateStart, TagOrDigest.asStart, Start.intoInner,
      Start.map]
  | some (.digest t) =>
    have h1 : replaceTo (r ++ '@' :: t) (byteLen r + 1) [] = some t := by simp [replaceTo, sliceFrom_sep]
    refine ⟨⟨t, none, some (.digest 0)⟩, ?_, rfl, rfl⟩
    simp [Image.setRegistry, mkImage, ImageParts.name, suffix, h1, updateStart, TagOrDigest.asStart, Start.intoInner,
      Start.map]

/-- C34: such images exist, for every registry. -/
theorem C34_only_registry (r : Str) (hr : Registry r) (hc : ':' ∉ r) :
    ∃ i, Image.parse r = .ok i ∧ Shows i ⟨some r, none, none⟩ := by
  have hN : ImageName r := imageName_iff.2 ⟨r, [], split_of_not_mem hr.not_slash, .inl hr, by simp⟩
  obtain ⟨i, h1, h2⟩ := C31_parse_text r none hN trivial (fun h => absurd h.1 hc)
  refine ⟨i, by simpa [suffix] using h1, ?_⟩
  have : partsOf r none = ⟨some r, none, none⟩ := by
    simp [partsOf, nameParts, splitOnce_eq_none.2 hr.not_slash, hr.1]
  rwa [this] at h2

example : ∃ i i', Image.parse "quay.io/podman/hello:v1".toList = .ok i ∧
    runEdits i [.setRegistry none, .setRegistry (some ⟨"docker.io".toList, some 9⟩), .setTag none] = some i' ∧
    i'.asStr = "docker.io/podman/hello".toList ∧ i'.registry = some (some "docker.io".toList) :=
  ⟨_, _, rfl, rfl, rfl, rfl⟩
example : ∃ i, Image.parse "example.com".toList = .ok i ∧ i.setRegistry none = none := ⟨_, rfl, rfl⟩

/-! ### C66 writing and reading back an edited image -/

/-- `part(/part)*` -/
def PathText (x : Str) : Prop := ∀ q ∈ split '/' x, NamePart q

/-- The parts are valid. -/
structure ValidParts (p : ImageParts) : Prop where
  registry : ∀ r, p.registry = some r → ImageName r
  path : ∀ x, p.path = some x → PathText x
  label : ValidTod p.label

theorem imageName_append {r x : Str} (hr : ImageName r) (hx : PathText x) : ImageName (r ++ '/' :: x) := by
  obtain ⟨f, ps, h1, h2, h3⟩ := imageName_iff.1 hr
  rw [imageName_iff]
  refine ⟨f, ps ++ split '/' x, ?_, h2, ?_⟩
  · rw [split_append, h1, List.cons_append]
  · intro p hp
    rcases List.mem_append.1 hp with h | h
    · exact h3 p h
    · exact hx p h

theorem imageName_of_path {x : Str} (hx : PathText x) : ImageName x := by
  rw [imageName_iff]
  cases hs : split '/' x with
  | nil => exact absurd hs (split_ne_nil _ _)
  | cons f ps =>
    unfold PathText at hx
    rw [hs] at hx
    refine ⟨f, ps, rfl, ?_, fun p hp => hx p (by simp [hp])⟩
    have := hx f (by simp)
    by_cases hd : '.' ∈ f
    · exact .inl ⟨hd, .inl this⟩
    · exact .inr ⟨hd, this⟩

theorem ValidParts.imageName {p : ImageParts} (h : ValidParts p) (hne : p.registry.isSome ∨ p.path.isSome) :
    ImageName p.name := by
  obtain ⟨reg, path, label⟩ := p
  match reg, path with
  | some r, some x => exact imageName_append (h.registry r rfl) (h.path x rfl)
  | some r, none => exact h.registry r rfl
  | none, some x => exact imageName_of_path (h.path x rfl)
  | none, none => simp at hne

theorem validParts_partsOf {name : Str} {label : Option TagOrDigest} (hN : ImageName name) (hT : ValidTod label) :
    ValidParts (partsOf name label) := by
  obtain ⟨f, ps, h1, h2, h3⟩ := imageName_iff.1 hN
  unfold partsOf nameParts
  rcases splitOnce_slash_cases name with ⟨_, e1, e2⟩ | ⟨f', r, _, _, e1, e2⟩
  · rw [e1]
    rw [e2] at h1
    simp only [List.cons.injEq] at h1
    obtain ⟨rfl, rfl⟩ := h1
    by_cases hd : '.' ∈ name
    · simp only [hd, if_true]
      refine ⟨fun r hr => ?_, fun x hx => by simp at hx, hT⟩
      simp only [Option.some.injEq] at hr
      exact hr ▸ hN
    · simp only [hd, if_false]
      refine ⟨fun r hr => by simp at hr, fun x hx => ?_, hT⟩
      simp only [Option.some.injEq] at hx
      subst hx
      intro q hq
      rw [e2] at hq
      simp only [List.mem_singleton] at hq
      subst hq
      rcases h2 with h2 | h2
      · exact absurd h2.1 hd
      · exact h2.2
  · rw [e1]
    rw [e2] at h1
    simp only [List.cons.injEq] at h1
    obtain ⟨rfl, rfl⟩ := h1
    by_cases hd : '.' ∈ f'
    · simp only [hd, if_true]
      refine ⟨fun r' hr => ?_, fun x hx => ?_, hT⟩
      · simp only [Option.some.injEq] at hr
        subst hr
        exact imageName_iff.2 ⟨_, [], split_of_not_mem h2.not_slash, h2, by simp⟩
      · simp only [Option.some.injEq] at hx
        subst hx
        exact h3
    · simp only [hd, if_false]
      refine ⟨fun r hr => by simp at hr, fun x hx => ?_, hT⟩
      simp only [Option.some.injEq] at hx
      subst hx
      intro q hq
      rw [e2] at hq
      simp only [List.mem_cons] at hq
      rcases hq with rfl | hq
      · rcases h2 with h2 | h2
        · exact absurd h2.1 hd
        · exact h2.2
      · exact h3 q hq

theorem validParts_apply {p : ImageParts} (h : ValidParts p) {e : Edit} (hv : e.Valid) : ValidParts (e.apply p) := by
  match e, hv with
  | .setRegistry none, _ => exact ⟨fun r hr => by simp [Edit.apply] at hr, h.path, h.label⟩
  | .setRegistry (some n), hv =>
    refine ⟨fun r hr => ?_, h.path, h.label⟩
    simp only [Edit.apply, Option.map_some, Option.some.injEq] at hr
    exact hr ▸ (nameNew_iff.1 hv).1
  | .setName n, hv => exact validParts_partsOf (nameNew_iff.1 hv).1 h.label
  | .setTag t, hv =>
    refine ⟨h.registry, h.path, ?_⟩
    cases t with
    | none => trivial
    | some t => exact (tagNew_iff.1 (hv t rfl)).1
  | .setDigest t, hv =>
    refine ⟨h.registry, h.path, ?_⟩
    cases t with
    | none => trivial
    | some t => exact (digestNew_iff.1 (hv t rfl)).1
  | .setTagOrDigest t, hv => exact ⟨h.registry, h.path, hv⟩

theorem validParts_edits {es : List Edit} (hv : ∀ e ∈ es, e.Valid) :
    ∀ {p : ImageParts}, ValidParts p → ValidParts (es.foldl Edit.apply p) := by
  induction es with
  | nil => intro p h; exact h
  | cons e es ih =>
    intro p h
    exact ih (fun x hx => hv x (by simp [hx])) (validParts_apply h (hv e (by simp)))

theorem shows_inj {i : Image} {p q : ImageParts} (hp : Shows i p) (hq : Shows i q) : p = q := by
  have h1 : p.registry = q.registry := Option.some.inj (hp.registry.symm.trans hq.registry)
  have h2 : p.label = q.label := Option.some.inj (hp.tagOrDigest.symm.trans hq.tagOrDigest)
  have h3 : p.name = q.name := Option.some.inj (hp.name.symm.trans hq.name)
  have e1 := hp.hasName
  have e2 := hq.hasName
  obtain ⟨r, x, l⟩ := p
  obtain ⟨r', x', l'⟩ := q
  simp only at h1 h2 e1 e2
  subst h1 h2
  match r, x, x' with
  | some r, some x, some x' => simp [ImageParts.name] at h3; rw [h3]
  | some r, none, none => rfl
  | some r, some x, none => simp [ImageParts.name] at h3
  | some r, none, some x => simp [ImageParts.name] at h3
  | none, some x, some x' => simp [ImageParts.name] at h3; rw [h3]
  | none, none, _ => simp at e1
  | none, some x, none => simp at e2

/-- Reading back the text of an image that shows valid parts gives the same image exactly when the registry is
where reading would find it, and it is not a lone registry with a port and without tag. -/
theorem reparse_iff {i : Image} {p : ImageParts} (hs : Shows i p) (hv : ValidParts p) :
    Image.parse i.asStr = .ok i ↔ partsOf p.name p.label = p ∧ (PortLast p.name → isTag p.label) := by
  constructor
  · intro h
    obtain ⟨name, t, h1, h2, h3, h4, rfl⟩ := parse_iff.1 h
    have := shows_inj hs (shows_partsOf name t)
    subst this
    simp only [partsOf_name]
    exact ⟨rfl, h4⟩
  · rintro ⟨h1, h2⟩
    rw [parse_iff]
    refine ⟨p.name, p.label, hs.text, hv.imageName hs.hasName, hv.label, h2, ?_⟩
    rw [((shows_iff _ _).1 hs).1]
    have : registryOf p.name = p.registry := by
      rw [← nameParts_registry]
      exact congrArg ImageParts.registry h1
    rw [this]

/-- C66: an image just parsed is read back identically from its text (all getters agree). -/
theorem C66_parsed_reparse (s : Str) (i : Image) (h : Image.parse s = .ok i) : Image.parse i.asStr = .ok i := by
  obtain ⟨rfl, _⟩ := C30_parse_parts s i h
  exact h

example : ∃ i, Image.parse "quay.io:443/podman/hello:v1".toList = .ok i ∧ Image.parse i.asStr = .ok i :=
  ⟨_, rfl, C66_parsed_reparse "quay.io:443/podman/hello:v1".toList _ rfl⟩

theorem partsOf_apply {p : ImageParts} (h : partsOf p.name p.label = p) {e : Edit} (hr : e.NotRegistry) :
    partsOf (e.apply p).name (e.apply p).label = e.apply p := by
  have hl : ∀ l, partsOf p.name l = { p with label := l } := by
    intro l
    have h1 := congrArg ImageParts.registry h
    have h2 := congrArg ImageParts.path h
    simp only [partsOf] at h1 h2 ⊢
    rw [h1, h2]
  match e, hr with
  | .setName n, _ => simp only [Edit.apply, partsOf_name]; rfl
  | .setTag t, _ => exact hl _
  | .setDigest t, _ => exact hl _
  | .setTagOrDigest t, _ => exact hl _

theorem partsOf_edits {es : List Edit} (hr : ∀ e ∈ es, e.NotRegistry) :
    ∀ {p : ImageParts}, partsOf p.name p.label = p →
      partsOf (es.foldl Edit.apply p).name (es.foldl Edit.apply p).label = es.foldl Edit.apply p := by
  induction es with
  | nil => intro p h; exact h
  | cons e es ih =>
    intro p h
    exact ih (fun x hx => hr x (by simp [hx])) (partsOf_apply h (hr e (by simp)))

/-- C66, any sequence of edits other than of the registry: the edited image is read back identically from its
text exactly when it does not end as a lone registry with a port and without tag.  Missing: that case, and in
`C66_registry_edits_partial` those where the registry is not where reading finds it. -/
theorem C66_edits_partial (s : Str) (i : Image) (h : Image.parse s = .ok i) (es : List Edit)
    (hv : ∀ e ∈ es, e.Valid) (hr : ∀ e ∈ es, e.NotRegistry) :
    ∃ i', runEdits i es = some i' ∧
      (Image.parse i'.asStr = .ok i' ↔ ∀ name, i'.name = some name → PortLast name → ∃ t, i'.tag = some (some t)) := by
  obtain ⟨_, name, label, h1, h2, h3, h4⟩ := C30_parse_parts s i h
  obtain ⟨i', h5, h6⟩ := edits_show es i _ h4 hv (safe_of_notRegistry es hr _)
  refine ⟨i', h5, ?_⟩
  rw [reparse_iff h6 (validParts_edits hv (validParts_partsOf h2 h3))]
  have := partsOf_edits hr (p := partsOf name label) (by rw [partsOf_name]; rfl)
  simp only [this, true_and, h6.name, h6.tag, Option.some.injEq, forall_eq']
  match (es.foldl Edit.apply (partsOf name label)).label with
  | none => simp [isTag]
  | some (.tag t) => simp [isTag]
  | some (.digest d) => simp [isTag]

example : ∃ i i', Image.parse "quay.io/hello:v1".toList = .ok i ∧ runEdits i [.setTag none] = some i' ∧
    Image.parse i'.asStr = .ok i' := ⟨_, _, rfl, rfl, rfl⟩

/-- C66, any safe sequence of edits, the registry included: the edited image is read back identically from its
text exactly when its registry is the first part of its name, with a dot, or it has none and that part has no
dot; and it is not a lone registry with a port and without tag. -/
theorem C66_registry_edits_partial (s : Str) (i : Image) (h : Image.parse s = .ok i) (es : List Edit)
    (hv : ∀ e ∈ es, e.Valid) (hs : ∀ name label, s = name ++ suffix label → Shows i (partsOf name label) →
      SafeEdits (partsOf name label) es) :
    ∃ i' name reg, runEdits i es = some i' ∧ i'.name = some name ∧ i'.registry = some reg ∧
      (Image.parse i'.asStr = .ok i' ↔
        (∀ r, reg = some r ↔ RegistryOf name r) ∧ (PortLast name → ∃ t, i'.tag = some (some t))) := by
  obtain ⟨_, name, label, h1, h2, h3, h4⟩ := C30_parse_parts s i h
  obtain ⟨i', h5, h6⟩ := edits_show es i _ h4 hv (hs name label h1 h4)
  refine ⟨i', _, _, h5, h6.name, h6.registry, ?_⟩
  rw [reparse_iff h6 (validParts_edits hv (validParts_partsOf h2 h3))]
  generalize es.foldl Edit.apply (partsOf name label) = p at h6
  have hreg : partsOf p.name p.label = p ↔ ∀ r, p.registry = some r ↔ RegistryOf p.name r := by
    simp only [← registryOf_eq_some, ← nameParts_registry]
    constructor
    · intro e r
      have := congrArg ImageParts.registry e
      simp only [partsOf] at this
      rw [this]
    · intro e
      have hr : (nameParts p.name).1 = p.registry := by
        cases hp : p.registry with
        | none =>
          cases hn : (nameParts p.name).1 with
          | none => rfl
          | some r => rw [(e r).2 hn] at hp; simp at hp
        | some r => exact (e r).1 hp
      have hsh : Shows i' (partsOf p.name p.label) := by
        rw [((shows_iff _ _).1 h6).1, ← hr, nameParts_registry]
        exact shows_partsOf _ _
      exact shows_inj hsh h6
  rw [hreg, h6.tag]
  match p.label with
  | none => simp [isTag]
  | some (.tag t) => simp [isTag]
  | some (.digest d) => simp [isTag]

example : ∃ i i', Image.parse "quay.io/a/hello:v1".toList = .ok i ∧ runEdits i [.setRegistry none, .setTag none] = some i' ∧
    Image.parse i'.asStr = .ok i' ∧ i'.asStr = "a/hello".toList := ⟨_, _, rfl, rfl, rfl, rfl⟩

/-- C66 is false in general: removing the tag of `quay.io:443:latest` leaves an image without tag whose text is
read back as an image with tag `443`. -/
theorem C66_reparse_false : ∃ i i' i'', Image.parse "quay.io:443:latest".toList = .ok i ∧ i.setTag none = some i' ∧
    i'.tag = some none ∧ Image.parse i'.asStr = .ok i'' ∧ i''.tag = some (some "443".toList) :=
  ⟨_, _, _, rfl, rfl, rfl, rfl, rfl⟩

/-- C66 is false for the registry too: after removing it from `a.io/b.c/d` there is none, but reading the text back
finds `b.c`. -/
theorem C66_registry_false : ∃ i i' i'', Image.parse "a.io/b.c/d".toList = .ok i ∧ i.setRegistry none = some i' ∧
    i'.registry = some none ∧ Image.parse i'.asStr = .ok i'' ∧ i''.registry = some (some "b.c".toList) :=
  ⟨_, _, _, rfl, rfl, rfl, rfl, rfl⟩

end Props
