import Verif.Proofs.Reasons
import Verif.Props.Build
import Verif.Props.Cache
import Verif.Props.CpuSet
import Verif.Props.Device
import Verif.Props.Ports
import Verif.Props.Volumes

/- C92: the reason given for a rejected text is true of it. -/

namespace Props
open Rust Compose Spec Re

/-! ### Names -/

/-- **C92**: identifiers. -/
theorem C92_identifier (s : Str) (e : IdentifierError) (h : identifierNew s = .error e) : IdentifierReason s e := by
  rcases (C01_identifier_error s e).1 h with ⟨rfl, rfl⟩ | ⟨c, cs, rfl, hc, rfl⟩ | ⟨c, a, bad, b, rfl, hc, ha, hb, rfl⟩
  · rfl
  · exact ⟨rfl, hc⟩
  · exact ⟨c :: a, b, rfl, by
      intro x hx
      rcases List.mem_cons.1 hx with rfl | hx
      · exact List.mem_append_left _ hc
      · exact ha x hx, hb⟩

example : identifierNew "a.b c".toList = .error (.character ' ') := by decide

/-- **C92**: keys of maps. -/
theorem C92_map_key (s : Str) (e : MapKeyError) (h : mapKeyNew s = .error e) : MapKeyReason s e := by
  rcases (C03_map_key_error s e).1 h with ⟨rfl, rfl⟩ | ⟨-, hn, rfl⟩
  · rfl
  · exact hn

example : MapKeyReason "a\nb".toList .multipleLines := C92_map_key _ _ (by decide)

/-- **C92**: names of extensions. -/
theorem C92_extension_key (s : Str) (e : ExtensionKeyError) (h : extensionKeyNew s = .error e) :
    ExtensionKeyReason s e := by
  rcases (C03_extension_key_error s e).1 h with ⟨hn, rfl⟩ | ⟨-, hn, rfl⟩
  · exact ⟨rfl, fun ⟨r, hr⟩ => hn ⟨r, hr.symm⟩⟩
  · exact hn

example : extensionKeyNew "y-a".toList = .error (.missingPrefix "y-a".toList) := by decide

/-- **C92**: project names. -/
theorem C92_project_name (s : Str) (e : NameError) (h : projectNameNew s = .error e) : ProjectNameReason s e := by
  rcases (C02_project_name_error s e).1 h with ⟨rfl, rfl⟩ | ⟨c, cs, rfl, hc, rfl⟩ | ⟨c, a, bad, b, rfl, hc, ha, hb, rfl⟩
  · rfl
  · exact ⟨rfl, hc⟩
  · exact ⟨c :: a, b, rfl, by
      intro x hx
      rcases List.mem_cons.1 hx with rfl | hx
      · exact List.mem_append_left _ hc
      · exact ha x hx, hb⟩

example : projectNameNew "aB".toList = .error (.character 'B') := by decide

private theorem piece_label {s a p b : Str} (hs : s = a ++ p ++ b) (ha : a = [] ∨ a.getLast? = some '.')
    (hb : b = [] ∨ b.head? = some '.') :
    (p = [] → s = [] ∨ s.head? = some '.' ∨ s.getLast? = some '.' ∨ "..".toList <:+: s) ∧
    (p.head? = some '-' ∨ p.getLast? = some '-' →
      s.head? = some '-' ∨ s.getLast? = some '-' ∨ ".-".toList <:+: s ∨ "-.".toList <:+: s) := by
  have hb' : b = [] ∨ ∃ b', b = '.' :: b' := by
    rcases hb with rfl | hb
    · exact .inl rfl
    · cases b with
      | nil => simp at hb
      | cons x xs => simp at hb; exact .inr ⟨xs, by rw [hb]⟩
  have ha' : a = [] ∨ ∃ a', a = a' ++ ['.'] := by
    rcases ha with rfl | ha
    · exact .inl rfl
    · exact .inr (List.getLast?_eq_some_iff.1 ha)
  subst hs
  refine ⟨?_, ?_⟩
  · rintro rfl
    rcases ha' with rfl | ⟨a', rfl⟩ <;> rcases hb' with rfl | ⟨b', rfl⟩
    · simp
    · simp
    · simp
    · exact .inr (.inr (.inr ⟨a', b', by simp⟩))
  · rintro (h | h)
    · cases p with
      | nil => simp at h
      | cons x xs =>
        simp at h; subst h
        rcases ha' with rfl | ⟨a', rfl⟩
        · simp
        · exact .inr (.inr (.inl ⟨a', xs ++ b, by simp⟩))
    · obtain ⟨q, rfl⟩ := List.getLast?_eq_some_iff.1 h
      rcases hb' with rfl | ⟨b', rfl⟩
      · refine .inr (.inl ?_); simp [List.getLast?_append]
      · exact .inr (.inr (.inr ⟨a ++ q, b', by simp⟩))

/-- **C92**: host names. -/
theorem C92_hostname (s : Str) (e : HostnameError) (h : hostnameNew s = .error e) : HostnameReason s e := by
  obtain ⟨pre, l, post, hs, -, hl⟩ := (C04_hostname_error s e).1 h
  obtain ⟨a, b, h1, h2, h3, h4⟩ := mem_splitOn (c := '.') (s := s) (p := l) (by rw [← split_eq_splitOn, hs]; simp)
  obtain ⟨k1, k2⟩ := piece_label h1 h2 h3
  rcases hl with ⟨rfl, rfl⟩ | ⟨x, c, y, rfl, -, hc, rfl⟩ | ⟨-, -, hse, rfl⟩
  · exact k1 rfl
  · have hm : c ∈ x ++ c :: y := by simp
    refine ⟨by rw [h1]; simp, fun hc' => ?_⟩
    have : c ≠ '.' := by rintro rfl; exact h4 hm
    simp_all
  · exact k2 hse

example : hostnameNew "a.-b".toList = .error .labelStartEnd := by decide
example : hostnameNew "a..b".toList = .error .labelEmpty := by decide

/-- **C92**: user and group names. -/
theorem C92_user_name (s : Str) (e : UserNameError) (h : userNameNew s = .error e) : UserNameReason s e :=
  userName_reason h

example : userNameNew "a$b".toList = .error .dollarSign := by decide
example : userNameNew "12".toList = .error .numeric := by decide

/-- **C92**: users with groups. -/
theorem C92_user (s : Str) (e : UserNameError) (h : User.parse s = .error e) : UserReason s e := by
  unfold User.parse at h
  split at h
  · rename_i user group hs
    obtain ⟨rfl, hn⟩ := splitOnce_eq_some.1 hs
    refine .inr ⟨user, group, by simp, hn, ?_⟩
    split at h
    · rename_i he; cases h; exact .inl (idOrName_reason he)
    split at h
    · rename_i he; cases h; exact .inr (idOrName_reason he)
    · cases h
  · rename_i hs
    refine .inl ⟨splitOnce_eq_none.1 hs, ?_⟩
    split at h
    · rename_i he; cases h; exact idOrName_reason he
    · cases h

example : User.parse "1000:a b".toList = .error (.character ' ') := by decide

/-- **C92**: names of resource limits. -/
theorem C92_ulimit_resource (s : Str) (e : ResourceError) (h : ulimitResourceNew s = .error e) : ResourceReason s e := by
  unfold ulimitResourceNew at h
  split at h
  · rename_i hs; cases h; simpa [ResourceReason] using hs
  split at h
  · rename_i c hc; cases h; exact firstBad_of_find (fun x => mem_lower) hc
  · cases h

example : ulimitResourceNew "no file".toList = .error (.character ' ') := by decide

/-- **C92**: options of caches. -/
theorem C92_cache_option (s : Str) (e : CacheOptionError) (h : cacheOptionNew s = .error e) : CacheOptionReason s e := by
  unfold cacheOptionNew at h
  split at h
  · rename_i hs; cases h; simpa [CacheOptionReason] using hs
  split at h
  · rename_i hw; cases h
    obtain ⟨c, hc, hw⟩ := List.any_eq_true.1 hw
    exact ⟨c, hc, (isWhitespace_iff c).1 hw⟩
  · cases h

example : cacheOptionNew "a b".toList = .error .whitespace := by decide

/-! ### Images -/

/-- **C92**: image names. -/
theorem C92_image_name (s : Str) (e : Image.NamePartError) (h : Image.Name.new s = .error e) : ImageNameReason s e :=
  imageName_reason h

example : Image.Name.new "a/b.-c".toList = .error .multipleSeparators := by decide
example : Image.Name.new "a.b:x/c".toList = .error (.registryPort .invalidDigit "x".toList) := by decide

/-- **C92**: tags. -/
theorem C92_tag (s : Str) (e : Image.TagError) (h : Image.tagNew s = .error e) : TagReason s e := by
  unfold Image.tagNew at h
  split at h
  · rename_i c hc; cases h; exact firstBad_of_find (fun x => Proofs.tagChar_iff.symm) hc
  rename_i hn
  split at h
  · rename_i hs; cases h; simpa [TagReason] using hs
  split at h
  · rename_i hl; cases h
    have : byteLen s = s.length := byteLen_of_ascii fun c hc => by
      have hc' : c ∈ alnum ++ "._-".toList := Proofs.tagChar_iff.1 (by simpa using List.find?_eq_none.1 hn c hc)
      have : ∀ c ∈ alnum ++ "._-".toList, c.toNat < 128 := by decide
      exact this c hc'
    show 128 < s.length
    omega
  · cases h

example : Image.tagNew (List.replicate 129 'a') = .error .length := by decide +kernel

private theorem algorithmLoop_error {r s : Str} {n : Nat} {e : Image.DigestError}
    (hr : (r = [] ∧ n = 0) ∨ ∃ x ∈ "+._-".toList, r = [x] ∧ n = 1)
    (h : Image.algorithmLoop n s = .error e) :
    (e = .algorithmSeparators ∧ ∃ x ∈ "+._-".toList, ∃ y ∈ "+._-".toList, [x, y] <:+: r ++ s) ∨
    (∃ c, e = .algorithmCharacter c ∧ FirstBad (lowerAlnum ++ "+._-".toList) s c) := by
  induction s generalizing r n with
  | nil => cases h
  | cons c cs ih =>
    have hgo : ∀ {r' n'}, ((r' = [] ∧ n' = 0) ∨ ∃ x ∈ "+._-".toList, r' = [x] ∧ n' = 1) → (∃ q, r ++ [c] = q ++ r') →
        c ∈ lowerAlnum ++ "+._-".toList → Image.algorithmLoop n' cs = .error e →
        (e = .algorithmSeparators ∧ ∃ x ∈ "+._-".toList, ∃ y ∈ "+._-".toList, [x, y] <:+: r ++ c :: cs) ∨
        (∃ x, e = .algorithmCharacter x ∧ FirstBad (lowerAlnum ++ "+._-".toList) (c :: cs) x) := by
      rintro r' n' hst ⟨q, hq⟩ hc h
      rcases ih hst h with ⟨rfl, x, hx, y, hy, p, t, hpt⟩ | ⟨x, rfl, hx⟩
      · refine .inl ⟨rfl, x, hx, y, hy, q ++ p, t, ?_⟩
        rw [show r ++ c :: cs = r ++ [c] ++ cs by simp, hq, List.append_assoc q r' cs, ← hpt]
        simp
      · exact .inr ⟨x, rfl, firstBad_cons hc hx⟩
    rw [Image.algorithmLoop] at h
    split at h
    · rename_i hc
      exact hgo (r' := []) (.inl ⟨rfl, rfl⟩) ⟨r ++ [c], by simp⟩ (by simp [mem_lowerAlnum, hc]) h
    split at h
    · rename_i hc
      have hc' : c ∈ "+._-".toList := by simpa using hc
      split at h
      · rename_i hn
        have hn : n = 0 := by omega
        subst hn
        rcases hr with ⟨rfl, -⟩ | ⟨x, hx, -, hn⟩
        · exact hgo (r' := [c]) (.inr ⟨c, hc', rfl, rfl⟩) ⟨[], rfl⟩ (List.mem_append_right _ hc') h
        · cases hn
      · rename_i hn
        cases h
        rcases hr with ⟨-, rfl⟩ | ⟨x, hx, rfl, -⟩
        · simp at hn
        · exact .inl ⟨rfl, x, hx, c, hc', [], cs, by simp⟩
    · rename_i h1 h2
      cases h
      refine .inr ⟨c, rfl, [], cs, rfl, by simp, ?_⟩
      simp only [List.mem_append, mem_lowerAlnum]
      simp_all

/-- **C92**: digests. -/
theorem C92_digest (s : Str) (e : Image.DigestError) (h : Image.digestNew s = .error e) : DigestReason s e := by
  unfold Image.digestNew at h
  split at h
  · rename_i hs; cases h; exact .inl (splitOnce_eq_none.1 hs)
  rename_i a d hs
  obtain ⟨rfl, hn⟩ := splitOnce_eq_some.1 hs
  split at h
  · rename_i e' he
    cases h
    rcases algorithmLoop_error (r := []) (.inl ⟨rfl, rfl⟩) he with ⟨rfl, h⟩ | ⟨c, rfl, h⟩
    · exact ⟨a, d, by simp, hn, h⟩
    · exact ⟨a, d, by simp, hn, h⟩
  split at h
  · rename_i c hc; cases h
    exact ⟨a, d, by simp, hn, firstBad_of_find (fun x => Proofs.encodedChar_iff.symm) hc⟩
  split at h
  · rename_i ha; cases h
    refine .inr ?_
    have : a = [] := by simpa using ha
    subst this; rfl
  rename_i ha
  split at h
  · rename_i hh
    cases h
    cases a with
    | nil => simp at ha
    | cons c cs =>
      refine ⟨c, rfl, by rintro rfl; simp at hn, ?_⟩
      rw [← Proofs.charIsAlnum_iff]; simpa using hh
  split at h
  · rename_i hh
    cases h
    cases hl : a.getLast? with
    | none => simp at hl; simp [hl] at ha
    | some c =>
      obtain ⟨q, rfl⟩ := List.getLast?_eq_some_iff.1 hl
      refine ⟨q, c, d, by simp, hn, ?_⟩
      rw [← Proofs.charIsAlnum_iff]; simpa using hh
  split at h
  · rename_i hd; cases h
    have : d = [] := by simpa using hd
    subst this
    exact ⟨a, rfl, hn⟩
  · cases h

example : Image.digestNew "sha+-256:ab".toList = .error .algorithmSeparators := by decide
example : Image.digestNew "sha256:a b".toList = .error (.encodeCharacter ' ') := by decide

/-- **C92**: images. -/
theorem C92_image (s : Str) (e : Image.ImageError) (h : Image.parse s = .error e) : ImageReason s e := by
  unfold Image.parse Image.parseImpl at h
  cases hd : Image.splitDigest s with
  | error e' =>
    rw [hd] at h; cases h
    unfold Image.splitDigest at hd
    split at hd
    · cases hd
    rename_i n d hs
    obtain ⟨rfl, hn⟩ := splitOnce_eq_some.1 hs
    split at hd
    · rename_i he; cases hd; exact ⟨n, d, by simp, hn, C92_digest d _ he⟩
    · cases hd
  | ok q =>
    obtain ⟨im, dst⟩ := q
    rw [hd] at h
    simp only at h
    have hd' := Proofs.splitDigest_iff.1 hd
    cases ht : Image.splitTag im with
    | error e' =>
      rw [ht] at h; cases h
      unfold Image.splitTag at ht
      split at ht
      · cases ht
      rename_i n t hs
      simp only [Option.filter_eq_some_iff, rsplitOnce_eq_some] at hs
      obtain ⟨⟨rfl, hn⟩, hsl⟩ := hs
      split at ht
      · rename_i he; cases ht
        have hat : '@' ∉ n ++ ':' :: t := by
          rcases hd' with ⟨h1, -, h2⟩ | ⟨d, h1, h2, -⟩
          · rw [h1]; exact h2
          · exact h2
        have hat1 : '@' ∉ n := fun h => hat (by simp [h])
        have hat2 : '@' ∉ t := fun h => hat (by simp [h])
        rcases hd' with ⟨h1, -⟩ | ⟨d, h1, -⟩
        · exact ⟨n, t, [], by rw [← h1]; simp, .inl rfl, hat1, hat2, hn, by simpa using hsl, C92_tag t _ he⟩
        · exact ⟨n, t, '@' :: d, by rw [h1]; simp, .inr rfl, hat1, hat2, hn, by simpa using hsl, C92_tag t _ he⟩
      · cases ht
    | ok q =>
      obtain ⟨n, tst⟩ := q
      rw [ht] at h
      simp only at h
      have ht' := Proofs.splitTag_iff.1 ht
      rcases hd' with ⟨rfl, rfl, -⟩ | ⟨d, rfl, -, hdig, rfl⟩ <;> rcases ht' with ⟨rfl, rfl, -⟩ | ⟨t, rfl, htag, rfl⟩
      all_goals simp only [Image.combineStarts] at h
      · split at h
        · rename_i hh; split at hh
          · rename_i hname; cases hh; cases h; exact ⟨_, .inl rfl, imageName_reason hname⟩
          · cases hh
        · cases h
      · split at h
        · rename_i hh; split at hh
          · rename_i hname; cases hh; cases h; exact ⟨_, .inr (.inl ⟨t, by simp, htag⟩), imageName_reason hname⟩
          · cases hh
        · cases h
      · split at h
        · rename_i hh; split at hh
          · rename_i hname; cases hh; cases h; exact ⟨_, .inr (.inr ⟨d, by simp, hdig⟩), imageName_reason hname⟩
          · cases hh
        · cases h
      · cases h; exact ⟨n, t, d, by simp, htag, hdig⟩

example : Image.parse "a:b@sha256:00".toList = .error .tagAndDigest := by decide
example : Image.parse "a:b c".toList = .error (.tag (.character ' ')) := by decide
example : Image.parse "A:b".toList = .error (.namePart (.character 'A')) := by decide

/-! ### Caches -/

private theorem parseOption_reason {o : Str} {e : ParseCacheError} (h : Cache.parseOption o = .error e) :
    ∃ e', e = .cacheOption e' ∧ (('=' ∉ o ∧ (CacheOptionReason o e' ∨ e' = .empty)) ∨
      ∃ key value, o = key ++ "=".toList ++ value ∧ '=' ∉ key ∧ (CacheOptionReason key e' ∨ CacheOptionReason value e')) := by
  unfold Cache.parseOption Cache.splitOption at h
  cases hs : splitOnce '=' o with
  | none =>
    rw [hs] at h
    simp only at h
    have hn := splitOnce_eq_none.1 hs
    split at h
    · rename_i e' he; cases h; exact ⟨e', rfl, .inl ⟨hn, .inl (C92_cache_option _ _ he)⟩⟩
    split at h
    · rename_i e' he; cases h
      refine ⟨e', rfl, .inl ⟨hn, .inr ?_⟩⟩
      cases he; rfl
    · cases h
  | some kv =>
    obtain ⟨k, v⟩ := kv
    obtain ⟨rfl, hn⟩ := splitOnce_eq_some.1 hs
    rw [hs] at h
    simp only at h
    split at h
    · rename_i e' he; cases h; exact ⟨e', rfl, .inr ⟨k, v, by simp, hn, .inl (C92_cache_option _ _ he)⟩⟩
    split at h
    · rename_i e' he; cases h; exact ⟨e', rfl, .inr ⟨k, v, by simp, hn, .inr (C92_cache_option _ _ he)⟩⟩
    · cases h

private theorem forall2_right {A B : Type} {R : A → B → Prop} {as : List A} {bs : List B} (h : List.Forall₂ R as bs)
    {a : A} (ha : a ∈ as) : ∃ b ∈ bs, R a b := by
  induction h with
  | nil => cases ha
  | cons h1 _ ih =>
    rcases List.mem_cons.1 ha with rfl | ha
    · exact ⟨_, List.mem_cons_self, h1⟩
    · obtain ⟨b, hb, hr⟩ := ih ha
      exact ⟨b, List.mem_cons_of_mem _ hb, hr⟩

private theorem forall2_append {A B : Type} {R : A → B → Prop} {as : List A} {bs cs : List B} {b : B}
    (h : List.Forall₂ R as (bs ++ b :: cs)) :
    ∃ xs x ys, as = xs ++ x :: ys ∧ R x b ∧ List.Forall₂ R ys cs := by
  induction bs generalizing as with
  | nil => cases h with | cons h1 h2 => exact ⟨[], _, _, rfl, h1, h2⟩
  | cons b' bs ih =>
    cases h with
    | cons h1 h2 =>
      obtain ⟨xs, x, ys, rfl, hx, hy⟩ := ih h2
      exact ⟨_ :: xs, x, ys, rfl, hx, hy⟩

private theorem option_ref {o : Str} {k v : Str} (h : o = k ++ '=' :: v) (hk : '=' ∉ k) :
    k = "ref".toList ↔ "ref=".toList <+: o := by
  subst h
  constructor
  · rintro rfl; exact ⟨v, rfl⟩
  · rintro ⟨t, ht⟩
    have h1 : splitOnce '=' (k ++ '=' :: v) = some (k, v) := splitOnce_eq_some.2 ⟨rfl, hk⟩
    have h2 : splitOnce '=' ("ref=".toList ++ t) = some ("ref".toList, t) :=
      splitOnce_eq_some.2 ⟨rfl, by decide⟩
    rw [ht, h1] at h2
    cases h2; rfl

/-- **C92**: caches. -/
theorem C92_cache (s : Str) (e : ParseCacheError) (h : Cache.parse s = .error e) : CacheReason s e := by
  unfold Cache.parse at h
  split at h
  · rename_i hcomma
    rw [split_eq_splitOn] at h
    have hpre : ∀ p, (∀ c ∈ p, c ≠ ',') → (p <+: s ↔ ∃ first rest, s.splitOn ',' = (p ++ first) :: rest) := by
      intro p hp
      rw [← split_eq_splitOn]
      constructor
      · rintro ⟨t, rfl⟩
        cases hs : splitOnce ',' t with
        | none =>
          have := splitOnce_eq_none.1 hs
          exact ⟨t, [], split_of_not_mem (by
            intro h; rcases List.mem_append.1 h with h | h
            · exact hp _ h rfl
            · exact this h)⟩
        | some ab =>
          obtain ⟨a, b⟩ := ab
          obtain ⟨rfl, hn⟩ := splitOnce_eq_some.1 hs
          refine ⟨a, split ',' b, ?_⟩
          rw [show p ++ (a ++ ',' :: b) = (p ++ a) ++ ',' :: b by simp]
          exact split_append_sep (by
            intro h; rcases List.mem_append.1 h with h | h
            · exact hp _ h rfl
            · exact hn h)
      · rintro ⟨first, rest, hs⟩
        have hj := joinWith_split ',' s
        rw [hs] at hj
        rw [← hj]
        cases rest with
        | nil => exact ⟨first, rfl⟩
        | cons q qs => exact ⟨first ++ ',' :: joinWith ',' (q :: qs), by simp [joinWith]⟩
    cases hs : s.splitOn ',' with
    | nil => rw [← split_eq_splitOn] at hs; exact absurd hs (split_ne_nil ',' s)
    | cons first options =>
      rw [hs, Cache.parseParts] at h
      split at h
      · rename_i hst
        cases h
        refine ⟨hcomma, fun hp => ?_⟩
        obtain ⟨f, rest, hf⟩ := (hpre "type=".toList (by decide)).1 hp
        rw [hs] at hf
        cases hf
        exact stripPrefix_eq_none.1 hst ⟨f, rfl⟩
      rename_i cacheType hst
      have hfirst := stripPrefix_eq_some.1 hst
      split at h
      · rename_i e' he
        cases h
        obtain ⟨before, o, after, h1, -, h2⟩ := collectResult_error.1 he
        obtain ⟨e', rfl, hr⟩ := parseOption_reason h2
        exact ⟨hcomma, o, by rw [hs, h1]; simp, hr⟩
      rename_i entries hent
      have hall := collectResult_ok.1 hent
      unfold Cache.withType at h
      split at h
      · rename_i hreg
        have hhead : (s.splitOn ',').head? = some "type=registry".toList := by
          rw [hs, hfirst, hreg]; rfl
        unfold IndexMap.shiftRemove at h
        cases hg : IndexMap.get (IndexMap.collect entries) "ref".toList with
        | none =>
          rw [hg] at h; cases h
          refine ⟨hhead, ?_⟩
          rw [IndexMap.get_eq_none, keys_collect, mem_firsts] at hg
          intro o ho
          rw [hs] at ho
          rcases List.mem_cons.1 ho with rfl | ho
          · rw [hfirst, hreg]; decide
          · obtain ⟨⟨k, v⟩, hm, hkv⟩ := forall2_right hall ho
            obtain ⟨h1, h2, -⟩ := parseOption_iff.1 hkv
            refine ⟨?_, fun hp => ?_⟩
            · rintro rfl
              have : '=' ∈ "ref".toList := by rw [h1]; simp
              exact absurd this (by decide)
            · obtain rfl := (option_ref h1 h2).2 hp
              exact hg (List.mem_map.2 ⟨_, hm, rfl⟩)
        | some r =>
          rw [hg] at h
          simp only [Option.map_some] at h
          rw [IndexMap.get_eq_some (IndexMap.ok_collect entries), mem_collect] at hg
          obtain ⟨before, after, hba, hna⟩ := hg
          rw [hba] at hall
          obtain ⟨xs, x, ys, hx, hxr, hys⟩ := forall2_append hall
          obtain ⟨h1, h2, -⟩ := parseOption_iff.1 hxr
          split at h
          · rename_i e' he
            cases h
            refine .inr ⟨r, first :: xs, ys, hhead, by rw [hs, hx, h1]; rfl, ?_, C92_image _ _ he⟩
            intro o ho hp
            obtain ⟨⟨k, v⟩, hm, hkv⟩ := forall2_right hys ho
            obtain ⟨h1, h2, -⟩ := parseOption_iff.1 hkv
            obtain rfl := (option_ref h1 h2).2 hp
            exact hna (List.mem_map.2 ⟨_, hm, rfl⟩)
          · cases h
      · split at h
        · rename_i e' he
          cases h
          refine ⟨hcomma, first, by rw [hs]; simp, .inr ⟨"type".toList, cacheType, by rw [hfirst]; rfl, by decide,
            .inr (C92_cache_option _ _ he)⟩⟩
        · cases h
  · rename_i hcomma
    split at h
    · rename_i e' he; cases h; exact .inl ⟨hcomma, C92_image _ _ he⟩
    · cases h

example : CacheReason "type=registry,src=b".toList .missingRef := C92_cache _ _ (by decide)

end Props
