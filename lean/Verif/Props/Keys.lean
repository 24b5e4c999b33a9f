import Verif.Proofs.Keys

/- Properties C01–C06: validated string types accept exactly their grammars. -/

namespace Props
open Rust Compose Re

/-! ### C01 Identifier -/

/-- C01: `Identifier::new` succeeds exactly on `[a-zA-Z0-9][a-zA-Z0-9._-]*` and keeps the text. -/
theorem C01_identifier_accepts (s i : Str) :
    identifierNew s = .ok i ↔ Spec.Identifier s ∧ i = s := by
  unfold identifierNew Spec.Identifier
  rw [seq_cls]
  cases s with
  | nil => simp
  | cons x xs =>
    simp only
    split
    · rename_i h
      simp only [reduceCtorEq, false_iff]
      rintro ⟨⟨c, cs, heq, hc, _⟩, _⟩
      simp at heq; rw [mem_alnum] at hc; simp [heq.1, hc] at h
    · rename_i h
      split
      · rename_i c hc
        simp only [reduceCtorEq, false_iff]
        rintro ⟨⟨c', cs, heq, _, hcs⟩, _⟩
        simp at heq; obtain ⟨rfl, rfl⟩ := heq
        rw [star_cls] at hcs
        have : xs.find? (fun c => !identifierChar c) = none :=
          find?_not_eq_none.2 fun c hc => mem_identifier_tail.1 (hcs c hc)
        rw [this] at hc; cases hc
      · rename_i hnone
        rw [find?_not_eq_none] at hnone
        have h2 : ∃ c cs, x :: xs = c :: cs ∧ c ∈ alnum ∧ star (cls (alnum ++ "._-".toList)) cs :=
          ⟨x, xs, rfl, by simpa [mem_alnum] using h,
            star_cls.2 fun c hc => mem_identifier_tail.2 (hnone c hc)⟩
        constructor
        · intro h'; cases h'; exact ⟨h2, rfl⟩
        · rintro ⟨_, rfl⟩; rfl

example : Spec.Identifier "web-1.test_2".toList := ((C01_identifier_accepts _ "web-1.test_2".toList).1 (by decide)).1

/-- C01: the error names the reason: empty text, the bad first character, or the first bad later character. -/
theorem C01_identifier_error (s : Str) (e : IdentifierError) :
    identifierNew s = .error e ↔
      (s = [] ∧ e = .empty) ∨
      (∃ c cs, s = c :: cs ∧ c ∉ alnum ∧ e = .start c) ∨
      (∃ c a bad b, s = c :: (a ++ bad :: b) ∧ c ∈ alnum ∧ (∀ x ∈ a, x ∈ alnum ++ "._-".toList) ∧
        bad ∉ alnum ++ "._-".toList ∧ e = .character bad) := by
  unfold identifierNew
  simp only [mem_identifier_tail, mem_alnum]
  cases s with
  | nil => simp; exact eq_comm
  | cons x xs =>
    simp only
    split
    · rename_i h
      constructor
      · intro h'; cases h'; exact Or.inr (Or.inl ⟨x, xs, rfl, by simpa using h, rfl⟩)
      · rintro (⟨h', _⟩ | ⟨c, cs, heq, _, rfl⟩ | ⟨c, a, bad, b, heq, hc, _⟩)
        · cases h'
        · cases heq; rfl
        · cases heq; simp [hc] at h
    · rename_i h
      split
      · rename_i c hc
        have hc' := hc
        rw [find?_not_eq_some] at hc
        obtain ⟨a, b, rfl, h1, h2⟩ := hc
        constructor
        · intro h'; cases h'
          exact Or.inr (Or.inr ⟨x, a, c, b, rfl, by simpa using h, h2, by simpa using h1, rfl⟩)
        · rintro (⟨h', _⟩ | ⟨c', cs, heq, hn, rfl⟩ | ⟨c', a', bad, b', heq, _, h4, h5, rfl⟩)
          · cases h'
          · cases heq; simp [hn] at h
          · simp only [List.cons.injEq] at heq
            have := find?_not_eq_some.2 ⟨a', b', heq.2, by simpa using h5, h4⟩
            rw [hc'] at this; cases this; rfl
      · rename_i hnone
        rw [find?_not_eq_none] at hnone
        constructor
        · intro h'; cases h'
        · rintro (⟨h', _⟩ | ⟨c', cs, heq, hn, rfl⟩ | ⟨c', a', bad, b', heq, _, h4, h5, rfl⟩)
          · cases h'
          · cases heq; simp [hn] at h
          · simp only [List.cons.injEq] at heq
            exact absurd (hnone bad (by rw [heq.2]; simp)) h5

example : identifierNew "web-1.test_2".toList = .ok "web-1.test_2".toList := by decide
example : identifierNew "a b!".toList = .error (.character ' ') := by decide
example : identifierNew "-a".toList = .error (.start '-') := by decide

/-! ### C02 Project name -/

/-- C02: `Name::new` succeeds exactly on `^[a-z0-9][a-z0-9_-]*$` and keeps the text. -/
theorem C02_project_name_accepts (s i : Str) :
    projectNameNew s = .ok i ↔ Spec.ProjectName s ∧ i = s := by
  unfold projectNameNew Spec.ProjectName
  rw [seq_cls]
  cases s with
  | nil => simp
  | cons x xs =>
    simp only
    split
    · rename_i h
      simp only [reduceCtorEq, false_iff]
      rintro ⟨⟨c, cs, heq, hc, _⟩, _⟩
      cases heq; rw [mem_lowerAlnum] at hc; rw [hc] at h; simp at h
    · rename_i h
      split
      · rename_i c hc
        simp only [reduceCtorEq, false_iff]
        rintro ⟨⟨c', cs, heq, _, hcs⟩, _⟩
        cases heq
        rw [star_cls] at hcs
        have := find?_not_eq_none.2 fun c hc => mem_projectName_tail.1 (hcs c hc)
        rw [this] at hc; cases hc
      · rename_i hnone
        rw [find?_not_eq_none] at hnone
        have h2 : ∃ c cs, x :: xs = c :: cs ∧ c ∈ lowerAlnum ∧
            star (cls (lowerAlnum ++ "_-".toList)) cs :=
          ⟨x, xs, rfl, by rw [mem_lowerAlnum]; cases hb : (isLower x || isDigit x) <;> simp_all,
            star_cls.2 fun c hc => mem_projectName_tail.2 (hnone c hc)⟩
        constructor
        · intro h'; cases h'; exact ⟨h2, rfl⟩
        · rintro ⟨_, rfl⟩; rfl

example : Spec.ProjectName "my_project-1".toList := ((C02_project_name_accepts _ "my_project-1".toList).1 (by decide)).1

/-- C02: the error names the reason. -/
theorem C02_project_name_error (s : Str) (e : NameError) :
    projectNameNew s = .error e ↔
      (s = [] ∧ e = .empty) ∨
      (∃ c cs, s = c :: cs ∧ c ∉ lowerAlnum ∧ e = .start c) ∨
      (∃ c a bad b, s = c :: (a ++ bad :: b) ∧ c ∈ lowerAlnum ∧
        (∀ x ∈ a, x ∈ lowerAlnum ++ "_-".toList) ∧
        bad ∉ lowerAlnum ++ "_-".toList ∧ e = .character bad) := by
  unfold projectNameNew
  simp only [mem_projectName_tail, mem_lowerAlnum]
  cases s with
  | nil => simp; exact eq_comm
  | cons x xs =>
    simp only
    split
    · rename_i h
      constructor
      · intro h'; cases h'; exact Or.inr (Or.inl ⟨x, xs, rfl, by simpa using h, rfl⟩)
      · rintro (⟨h', _⟩ | ⟨c, cs, heq, _, rfl⟩ | ⟨c, a, bad, b, heq, hc, _⟩)
        · cases h'
        · cases heq; rfl
        · cases heq; rw [hc] at h; simp at h
    · rename_i h
      have hx : (isLower x || isDigit x) = true := by cases hb : (isLower x || isDigit x) <;> simp_all
      split
      · rename_i c hc
        have hc' := hc
        rw [find?_not_eq_some] at hc
        obtain ⟨a, b, rfl, h1, h2⟩ := hc
        constructor
        · intro h'; cases h'
          exact Or.inr (Or.inr ⟨x, a, c, b, rfl, hx, h2, by rw [h1]; simp, rfl⟩)
        · rintro (⟨h', _⟩ | ⟨c', cs, heq, hn, rfl⟩ | ⟨c', a', bad, b', heq, _, h4, h5, rfl⟩)
          · cases h'
          · cases heq; exact absurd hx hn
          · simp only [List.cons.injEq] at heq
            have := find?_not_eq_some.2 ⟨a', b', heq.2, Bool.eq_false_iff.2 h5, h4⟩
            rw [hc'] at this; cases this; rfl
      · rename_i hnone
        rw [find?_not_eq_none] at hnone
        constructor
        · intro h'; cases h'
        · rintro (⟨h', _⟩ | ⟨c', cs, heq, hn, rfl⟩ | ⟨c', a', bad, b', heq, _, h4, h5, rfl⟩)
          · cases h'
          · cases heq; exact absurd hx hn
          · simp only [List.cons.injEq] at heq
            exact absurd (hnone bad (by rw [heq.2]; simp)) h5

example : projectNameNew "my_project-1".toList = .ok "my_project-1".toList := by decide
example : projectNameNew "myProject".toList = .error (.character 'P') := by decide
example : projectNameNew "_x".toList = .error (.start '_') := by decide

/-! ### C03 Map keys and extension keys -/

/-- C03: `MapKey::new` accepts exactly the non-empty single-line strings. -/
theorem C03_map_key_accepts (s k : Str) : mapKeyNew s = .ok k ↔ Spec.MapKey s ∧ k = s := by
  unfold mapKeyNew Spec.MapKey
  cases s with
  | nil => simp
  | cons x xs =>
    by_cases h : '\n' ∈ x :: xs
    · rw [if_neg (by simp), if_pos (by simpa using h)]; simp [h]
    · rw [if_neg (by simp), if_neg (by simpa using h)]
      simp only [Except.ok.injEq, ne_eq, reduceCtorEq, not_false_eq_true, true_and, h]
      exact eq_comm

example : Spec.MapKey "a key=1".toList := ((C03_map_key_accepts _ "a key=1".toList).1 (by decide)).1

/-- C03: an empty key is reported as empty, a multi-line one as multi-line. -/
theorem C03_map_key_error (s : Str) (e : MapKeyError) :
    mapKeyNew s = .error e ↔
      (s = [] ∧ e = .empty) ∨ (s ≠ [] ∧ '\n' ∈ s ∧ e = .multipleLines) := by
  unfold mapKeyNew
  cases s with
  | nil => simp [eq_comm]
  | cons x xs =>
    by_cases h : '\n' ∈ x :: xs
    · rw [if_neg (by simp), if_pos (by simpa using h)]; simp [h, eq_comm]
    · rw [if_neg (by simp), if_neg (by simpa using h)]; simp [h]

example : mapKeyNew "a\nb".toList = .error .multipleLines := (C03_map_key_error _ _).2 (.inr ⟨by decide, by decide, rfl⟩)

/-- C03: `ExtensionKey::new` accepts exactly the single-line strings starting with `x-`. -/
theorem C03_extension_key_accepts (s k : Str) :
    extensionKeyNew s = .ok k ↔ Spec.ExtensionKey s ∧ k = s := by
  unfold extensionKeyNew Spec.ExtensionKey
  have hp : (∃ r, s = "x-".toList ++ r) ↔ ∃ r, stripPrefix ['x', '-'] s = some r := by
    constructor
    · rintro ⟨r, rfl⟩; exact ⟨r, stripPrefix_eq_some.2 rfl⟩
    · rintro ⟨r, h⟩; exact ⟨r, stripPrefix_eq_some.1 h⟩
  rw [hp]
  cases hs : stripPrefix ['x', '-'] s with
  | none => simp
  | some r =>
    by_cases h : '\n' ∈ s
    · simp [h]
    · simp [h, eq_comm]

example : Spec.ExtensionKey "x-foo".toList := ((C03_extension_key_accepts _ "x-foo".toList).1 (by decide)).1

/-- C03: a missing prefix is reported (with the key) before a newline. -/
theorem C03_extension_key_error (s : Str) (e : ExtensionKeyError) :
    extensionKeyNew s = .error e ↔
      ((¬ ∃ r, s = "x-".toList ++ r) ∧ e = .missingPrefix s) ∨
      ((∃ r, s = "x-".toList ++ r) ∧ '\n' ∈ s ∧ e = .multipleLines) := by
  unfold extensionKeyNew
  have hp : (∃ r, s = "x-".toList ++ r) ↔ ∃ r, stripPrefix ['x', '-'] s = some r := by
    constructor
    · rintro ⟨r, rfl⟩; exact ⟨r, stripPrefix_eq_some.2 rfl⟩
    · rintro ⟨r, h⟩; exact ⟨r, stripPrefix_eq_some.1 h⟩
  rw [hp]
  cases hs : stripPrefix ['x', '-'] s with
  | none => simp [eq_comm]
  | some r =>
    by_cases h : '\n' ∈ s
    · simp [h, eq_comm]
    · simp [h]

example : extensionKeyNew "x-a\n".toList = .error .multipleLines :=
  (C03_extension_key_error _ _).2 (.inr ⟨⟨"a\n".toList, rfl⟩, by decide, rfl⟩)

/-- C03: on an accepted extension key, `strip_prefix` never panics and returns the text after `x-`. -/
theorem C03_extension_key_strip (s k : Str) (h : extensionKeyNew s = .ok k) :
    ∃ r, extensionKeyStripPrefix k = some r ∧ s = "x-".toList ++ r := by
  obtain ⟨⟨⟨r, hr⟩, _⟩, rfl⟩ := (C03_extension_key_accepts s k).1 h
  exact ⟨r, stripPrefix_eq_some.2 hr, hr⟩

example : mapKeyNew "a key=1".toList = .ok "a key=1".toList := by decide
example : mapKeyNew "a\nb".toList = .error .multipleLines := by decide
example : extensionKeyNew "x-foo".toList = .ok "x-foo".toList := by decide
example : extensionKeyNew "foo".toList = .error (.missingPrefix "foo".toList) := by decide
example : extensionKeyNew "x-a\n".toList = .error .multipleLines := by decide

/-! ### C04 Hostname -/

/-- C04: `Hostname::new` accepts exactly dot separated RFC 1123 labels and keeps the text. -/
theorem C04_hostname_accepts (s h : Str) : hostnameNew s = .ok h ↔ Spec.Hostname s ∧ h = s := by
  unfold hostnameNew
  rw [hostname_parts]
  have hn : (split '.' s).findSome? hostnameLabelError = none ↔
      ∀ l ∈ split '.' s, Spec.HostLabel l := by
    rw [List.findSome?_eq_none_iff]
    simp only [hostnameLabelError_eq_none]
  rw [← hn]
  cases (split '.' s).findSome? hostnameLabelError with
  | none => simp [eq_comm]
  | some e => simp

example : Spec.Hostname "my-host.example.com".toList := ((C04_hostname_accepts _ "my-host.example.com".toList).1 (by decide)).1

/-- C04: when rejected, the error describes the first bad label. -/
theorem C04_hostname_error (s : Str) (e : HostnameError) :
    hostnameNew s = .error e ↔
      ∃ pre l post, split '.' s = pre ++ l :: post ∧ (∀ p ∈ pre, Spec.HostLabel p) ∧
        ((l = [] ∧ e = .labelEmpty) ∨
         (∃ a c b, l = a ++ c :: b ∧ (∀ x ∈ a, x ∈ alnum ++ ['-']) ∧ c ∉ alnum ++ ['-'] ∧
            e = .character c) ∨
         (l ≠ [] ∧ (∀ x ∈ l, x ∈ alnum ++ ['-']) ∧ (l.head? = some '-' ∨ l.getLast? = some '-') ∧
            e = .labelStartEnd)) := by
  have hcls : ∀ c, c ∈ alnum ++ ['-'] ↔ (isAlnum c || c == '-') = true := by
    intro c; simp [mem_alnum]
  have hfn : (fun c => !isAlnum c && c != '-') = fun c => !(isAlnum c || c == '-') := by
    funext c; simp [bne]
  have hlab : ∀ l, hostnameLabelError l = some e ↔
        ((l = [] ∧ e = .labelEmpty) ∨
         (∃ a c b, l = a ++ c :: b ∧ (∀ x ∈ a, x ∈ alnum ++ ['-']) ∧ c ∉ alnum ++ ['-'] ∧
            e = .character c) ∨
         (l ≠ [] ∧ (∀ x ∈ l, x ∈ alnum ++ ['-']) ∧ (l.head? = some '-' ∨ l.getLast? = some '-') ∧
            e = .labelStartEnd)) := by
    intro l
    simp only [hcls]
    unfold hostnameLabelError
    rw [hfn]
    cases l with
    | nil => simp; exact eq_comm
    | cons x xs =>
      simp only [List.isEmpty_cons, Bool.false_eq_true, if_false]
      split
      · rename_i c hc
        have hc' := hc
        rw [find?_not_eq_some] at hc
        obtain ⟨a, b, hab, h1, h2⟩ := hc
        constructor
        · intro h; cases h; exact Or.inr (Or.inl ⟨a, c, b, hab, h2, by rw [h1]; simp, rfl⟩)
        · rintro (⟨h, _⟩ | ⟨a', c', b', hab', h3, h4, rfl⟩ | ⟨_, h, _⟩)
          · cases h
          · have := find?_not_eq_some.2 ⟨a', b', hab', Bool.eq_false_iff.2 h4, h3⟩
            rw [hc'] at this; cases this; rfl
          · have := h c (by rw [hab]; simp)
            rw [h1] at this; cases this
      · rename_i hnone
        rw [find?_not_eq_none] at hnone
        split
        · rename_i hse
          constructor
          · intro h; cases h; exact Or.inr (Or.inr ⟨by simp, hnone, hse, rfl⟩)
          · rintro (⟨h, _⟩ | ⟨a', c', b', hab', h3, h4, rfl⟩ | ⟨_, h, _, rfl⟩)
            · cases h
            · exact absurd (hnone c' (by rw [hab']; simp)) h4
            · rfl
        · rename_i hse
          constructor
          · intro h; cases h
          · rintro (⟨h, _⟩ | ⟨a', c', b', hab', h3, h4, rfl⟩ | ⟨_, h, h', rfl⟩)
            · cases h
            · exact absurd (hnone c' (by rw [hab']; simp)) h4
            · exact absurd h' hse
  simp only [← hlab]
  unfold hostnameNew
  constructor
  · intro h
    split at h
    · rename_i e' he
      cases h
      rw [List.findSome?_eq_some_iff] at he
      obtain ⟨pre, l, post, h1, h2, h3⟩ := he
      exact ⟨pre, l, post, h1, fun p hp => hostnameLabelError_eq_none.1 (h3 p hp), h2⟩
    · cases h
  · rintro ⟨pre, l, post, h1, h2, h3⟩
    have : (split '.' s).findSome? hostnameLabelError = some e := by
      rw [List.findSome?_eq_some_iff]
      exact ⟨pre, l, post, h1, h3, fun p hp => hostnameLabelError_eq_none.2 (h2 p hp)⟩
    rw [this]

example : hostnameNew "my-host.example.com".toList = .ok "my-host.example.com".toList := by decide
example : hostnameNew "a..b".toList = .error .labelEmpty := by decide
example : hostnameNew "a.b-".toList = .error .labelStartEnd := by decide
example : hostnameNew "a.b_c".toList = .error (.character '_') := by decide

/-! ### C05 User and group names -/

/-- C05: user/group names accepted are exactly those of the documented grammar, kept unchanged. -/
theorem C05_user_name_accepts (s n : Str) : userNameNew s = .ok n ↔ Spec.UserName s ∧ n = s := by
  rw [userName_spec]
  unfold userNameNew
  cases s with
  | nil => simp
  | cons x xs =>
    simp only [List.isEmpty_cons, Bool.false_eq_true, if_false]
    split
    · rename_i e he
      simp only [reduceCtorEq, false_iff]
      rintro ⟨⟨_, h1, h2, _⟩, _⟩
      have := (userNameLoop_ok (len := byteLen (x :: xs)) (b := true && (x :: xs).all isDigit) (n := 0) (fn := true)
        (by rw [userName_byteLen h1]; simp)).2 ⟨h1, h2, rfl⟩
      rw [he] at this; cases this
    · rename_i b hb
      have hlen : byteLen (x :: xs) = (x :: xs).length := userName_byteLen_of_loop hb
      obtain ⟨h1, h2, h3⟩ := (userNameLoop_ok (by omega)).1 hb
      rw [Bool.true_and] at h3
      subst h3
      rw [hlen]
      split
      · rename_i hall
        simp only [reduceCtorEq, false_iff]
        rintro ⟨⟨_, _, _, _, _, h⟩, _⟩
        exact h hall
      · rename_i hall
        split
        · rename_i hh
          simp only [reduceCtorEq, false_iff]
          rintro ⟨⟨_, _, _, h, _⟩, _⟩; exact h hh
        · rename_i hh
          split
          · rename_i hl
            simp only [reduceCtorEq, false_iff]
            rintro ⟨⟨_, _, _, _, h, _⟩, _⟩; omega
          · rename_i hl
            constructor
            · intro h; cases h
              exact ⟨⟨by simp, h1, h2, hh, by omega, hall⟩, rfl⟩
            · rintro ⟨_, rfl⟩; rfl

example : userNameNew "docker-user_1$".toList = .ok "docker-user_1$".toList := by decide
example : userNameNew "12345".toList = .error .numeric := by decide
example : userNameNew "a$b".toList = .error .dollarSign := by decide
example : userNameNew "-a".toList = .error .start := by decide
example : userNameNew (List.replicate 33 'a') = .error .length := by decide

/-! ### C06 Short validated strings -/

/-- C06: ulimit resources are exactly `[a-z]+`. -/
theorem C06_ulimit_resource_accepts (s r : Str) :
    ulimitResourceNew s = .ok r ↔ Spec.UlimitResource s ∧ r = s := by
  unfold ulimitResourceNew Spec.UlimitResource
  rw [plus_cls]
  simp only [mem_lower]
  cases s with
  | nil => simp
  | cons x xs =>
    simp only [List.isEmpty_cons, Bool.false_eq_true, if_false]
    split
    · rename_i c hc
      rw [find?_not_eq_some] at hc
      obtain ⟨a, b, hab, h1, _⟩ := hc
      simp only [reduceCtorEq, false_iff]
      rintro ⟨⟨_, h⟩, _⟩
      have := h c (by rw [hab]; simp)
      rw [h1] at this; cases this
    · rename_i hnone
      rw [find?_not_eq_none] at hnone
      constructor
      · intro h; cases h; exact ⟨⟨by simp, hnone⟩, rfl⟩
      · rintro ⟨_, rfl⟩; rfl

example : Spec.UlimitResource "nofile".toList := ((C06_ulimit_resource_accepts _ "nofile".toList).1 (by decide)).1

/-- C06: cache options are exactly the non-empty strings without white space. -/
theorem C06_cache_option_accepts (s o : Str) :
    cacheOptionNew s = .ok o ↔ Spec.CacheOption s ∧ o = s := by
  unfold cacheOptionNew Spec.CacheOption
  have hw : ∀ c : Char, isWhitespace c = true ↔ c.toNat ∈ Spec.whiteSpace := isWhitespace_iff
  cases s with
  | nil => simp
  | cons x xs =>
    simp only [List.isEmpty_cons, Bool.false_eq_true, if_false]
    split
    · rename_i h
      rw [List.any_eq_true] at h
      obtain ⟨c, hc, hcw⟩ := h
      simp only [reduceCtorEq, false_iff]
      rintro ⟨⟨_, h⟩, _⟩
      exact h c hc ((hw c).1 hcw)
    · rename_i h
      constructor
      · intro h'; cases h'
        refine ⟨⟨by simp, fun c hc hm => h ?_⟩, rfl⟩
        rw [List.any_eq_true]; exact ⟨c, hc, (hw c).2 hm⟩
      · rintro ⟨_, rfl⟩; rfl

example : Spec.CacheOption "path/to=x".toList := ((C06_cache_option_accepts _ "path/to=x".toList).1 (by decide)).1

/-- C06: a build network is `none`, or any other identifier, and nothing else. -/
theorem C06_build_network_parse (s : Str) (n : BuildNetwork) :
    buildNetworkParse s = .ok n ↔
      (s = "none".toList ∧ n = .none) ∨
      (s ≠ "none".toList ∧ Spec.Identifier s ∧ n = .identifier s) := by
  unfold buildNetworkParse
  have hnone : (str!"none" : Str) = "none".toList := by decide
  rw [hnone]
  by_cases h : s = "none".toList
  · simp [h, eq_comm]
  · rw [if_neg h]
    simp only [h, false_and, false_or, ne_eq, not_false_eq_true, true_and]
    cases hi : identifierNew s with
    | ok i =>
      obtain ⟨h1, rfl⟩ := (C01_identifier_accepts s i).1 hi
      simp [h1, eq_comm]
    | error e =>
      simp only [reduceCtorEq, false_iff]
      rintro ⟨h1, _⟩
      rw [(C01_identifier_accepts s s).2 ⟨h1, rfl⟩] at hi; cases hi

example : buildNetworkParse "none".toList = .ok .none ∧ buildNetworkParse "None".toList = .ok (.identifier "None".toList) := by
  decide

/-- C06: the text of a parsed build network is the text it was parsed from. -/
theorem C06_build_network_text (s : Str) (n : BuildNetwork) (h : buildNetworkParse s = .ok n) :
    buildNetworkAsStr n = s := by
  rcases (C06_build_network_parse s n).1 h with ⟨rfl, rfl⟩ | ⟨_, _, rfl⟩ <;> rfl

example : ulimitResourceNew "nofile".toList = .ok "nofile".toList := by decide
example : ulimitResourceNew "noFile".toList = .error (.character 'F') := by decide
example : cacheOptionNew "path/to=x".toList = .ok "path/to=x".toList := by decide
example : cacheOptionNew "a\tb".toList = .error .whitespace := by decide
example : buildNetworkParse "none".toList = .ok .none := by decide
example : buildNetworkParse "front-tier".toList = .ok (.identifier "front-tier".toList) := by decide
example : buildNetworkParse "".toList = .error .empty := by decide

end Props
