import Verif.Spec.Build
import Mathlib.Tactic.Common

namespace Props
open Rust Compose

/-! ### C58: SSH authentication -/

theorem sshNew_ok {i p : Str} {v : SshId} : SshId.new i p = .ok v ↔ v = ⟨i, p⟩ ∧ i ≠ [] ∧ p ≠ [] := by
  unfold SshId.new
  split
  · simp_all
  · split
    · simp_all
    · rename_i h1 h2
      constructor
      · intro h; cases h; exact ⟨rfl, h1, h2⟩
      · rintro ⟨rfl, -, -⟩; rfl

theorem sshIdParse_ok {s : Str} {v : SshId} :
    SshId.parse s = .ok v ↔ s = v.id ++ '=' :: v.path ∧ '=' ∉ v.id ∧ v.id ≠ [] ∧ v.path ≠ [] := by
  unfold SshId.parse
  cases h : splitOnce '=' s with
  | none =>
    rw [splitOnce_eq_none] at h
    constructor
    · intro h'; cases h'
    · rintro ⟨rfl, -⟩; exact absurd (by simp) h
  | some ab =>
    obtain ⟨a, b⟩ := ab
    simp only
    rw [sshNew_ok]
    have h0 := splitOnce_eq_some.1 h
    constructor
    · rintro ⟨rfl, h1, h2⟩; exact ⟨h0.1, h0.2, h1, h2⟩
    · rintro ⟨hs, h1, h2, h3⟩
      have h' := (splitOnce_eq_some (a := v.id) (b := v.path)).2 ⟨hs, h1⟩
      rw [h] at h'
      cases h'
      exact ⟨rfl, h2, h3⟩

/-- An entry is accepted exactly when it is `default` or `id=path`, and then it is read as written. -/
theorem C58_ssh_accepts (s : Str) (a : SshAuth) : SshAuth.parse s = .ok a ↔ Spec.SshAuthText s a := by
  unfold SshAuth.parse
  constructor
  · intro h
    split at h
    · rename_i hs; cases h; subst hs; exact .default
    · cases hp : SshId.parse s with
      | error e => rw [hp] at h; cases h
      | ok v =>
        rw [hp] at h
        cases h
        obtain ⟨hs, h1, h2, h3⟩ := sshIdParse_ok.1 hp
        have := Spec.SshAuthText.id h2 h1 h3
        simpa [hs] using this
  · intro h
    cases h with
    | default => rfl
    | id h1 h2 h3 =>
      rename_i i p
      have hne : i ++ "=".toList ++ p ≠ "default".toList := by
        intro e
        have : '=' ∈ "default".toList := by rw [← e]; simp
        revert this; decide
      rw [if_neg hne, (sshIdParse_ok (v := ⟨i, p⟩)).2 ⟨by simp, h2, h1, h3⟩]
      rfl

example : Spec.SshAuthText "my=/a=b".toList (.id ⟨"my".toList, "/a=b".toList⟩) := (C58_ssh_accepts _ _).1 rfl

/-- What is wrong with a rejected entry: the id is empty exactly when the text starts with `=`. -/
theorem C58_ssh_errors (s : Str) (e : SshIdError) :
    SshAuth.parse s = .error e ↔
      (∃ p, s = "=".toList ++ p ∧ e = .emptyId) ∨
      (s ≠ "default".toList ∧ '=' ∉ s ∧ e = .missingPath) ∨
      (∃ i, i ≠ [] ∧ '=' ∉ i ∧ s = i ++ "=".toList ∧ e = .missingPath) := by
  have hd : '=' ∉ "default".toList := by decide
  unfold SshAuth.parse SshId.parse
  constructor
  · intro h
    split at h
    · cases h
    · rename_i hs
      cases hp : splitOnce '=' s with
      | none =>
        rw [hp] at h; cases h
        exact .inr (.inl ⟨hs, splitOnce_eq_none.1 hp, rfl⟩)
      | some ab =>
        obtain ⟨a, b⟩ := ab
        rw [hp] at h
        obtain ⟨rfl, h2⟩ := splitOnce_eq_some.1 hp
        simp only [SshId.new] at h
        split at h
        · rename_i ha; cases h; subst ha; exact .inl ⟨b, rfl, rfl⟩
        · split at h
          · rename_i ha hb; cases h; subst hb; exact .inr (.inr ⟨a, ha, h2, rfl, rfl⟩)
          · cases h
  · rintro (⟨p, rfl, rfl⟩ | ⟨h1, h2, rfl⟩ | ⟨i, h1, h2, rfl, rfl⟩)
    · rw [if_neg (by intro e; rw [← e] at hd; simp at hd),
        (splitOnce_eq_some (c := '=') (s := "=".toList ++ p) (a := []) (b := p)).2 ⟨rfl, by simp⟩]
      rfl
    · rw [if_neg h1, splitOnce_eq_none.2 h2]
      rfl
    · rw [if_neg (by intro e; rw [← e] at hd; simp at hd),
        (splitOnce_eq_some (c := '=') (s := i ++ "=".toList) (a := i) (b := [])).2 ⟨rfl, h2⟩]
      simp [SshId.new, h1, Except.map]

example : SshAuth.parse "id=".toList = .error .missingPath :=
  (C58_ssh_errors _ _).2 (.inr (.inr ⟨"id".toList, by simp, by decide, rfl, rfl⟩))

/-- An id made by `Id::new` (both parts non-empty, kept as given) is read back from its text exactly when it contains
no `=`; `default` always is. -/
theorem C58_ssh_round_trip :
    (SshAuth.parse (SshAuth.show .default) = .ok .default) ∧
    ∀ i p v, SshId.new i p = .ok v →
      v.id = i ∧ v.path = p ∧ (SshAuth.parse (SshAuth.show (.id v)) = .ok (.id v) ↔ '=' ∉ i) := by
  refine ⟨rfl, fun i p v hv => ?_⟩
  obtain ⟨rfl, h1, h2⟩ := sshNew_ok.1 hv
  refine ⟨rfl, rfl, ?_⟩
  rw [C58_ssh_accepts]
  constructor
  · intro h
    generalize hs : SshAuth.show (.id ⟨i, p⟩) = s at h
    cases h with
    | id _ h _ => exact h
  · intro h
    have := Spec.SshAuthText.id h1 h h2
    simpa [SshAuth.show, SshId.show] using this

example : SshAuth.parse (SshAuth.show (.id ⟨"my".toList, "/a=b".toList⟩)) = .ok (.id ⟨"my".toList, "/a=b".toList⟩) :=
  (C58_ssh_round_trip.2 "my".toList "/a=b".toList _ rfl).2.2.2 (by decide)

/-- `Id::new` rejects exactly empty parts. -/
theorem C58_ssh_new (i p : Str) (e : SshIdError) :
    SshId.new i p = .error e ↔ (i = [] ∧ e = .emptyId) ∨ (i ≠ [] ∧ p = [] ∧ e = .missingPath) := by
  unfold SshId.new
  by_cases h1 : i = []
  · simp [h1, eq_comm]
  · by_cases h2 : p = [] <;> simp [h1, h2, eq_comm]

example : SshAuth.parse "my=/a=b".toList = .ok (.id ⟨"my".toList, "/a=b".toList⟩) := by rfl
example : SshAuth.parse "default".toList = .ok .default := by rfl
example : SshAuth.parse "default=".toList = .error .missingPath := by rfl
example : SshAuth.parse "=x".toList = .error .emptyId := by rfl
example : SshId.new "a=b".toList "c".toList = .ok ⟨"a=b".toList, "c".toList⟩ := by rfl

/-! ### C64: build contexts -/

theorem toNat_inj {c d : Char} (h : c.toNat = d.toNat) : c = d := Char.toNat_inj.1 h

theorem lower_eq {c d u : Char} (hd : isLower d = true) (hu : u.toNat + 32 = d.toNat) :
    toAsciiLower c = d ↔ c = d ∨ c = u := by
  have hd' : 97 ≤ d.toNat ∧ d.toNat ≤ 122 := by
    simpa [isLower, Char.le_def, UInt32.le_iff_toNat_le] using hd
  have hup (c : Char) : isUpper c = true ↔ 65 ≤ c.toNat ∧ c.toNat ≤ 90 := by
    simp [isUpper, Char.le_def, UInt32.le_iff_toNat_le]
  unfold toAsciiLower
  split
  · rename_i h
    rw [hup] at h
    have hv : (Char.ofNat (c.toNat + 32)).toNat = c.toNat + 32 := by
      have hval : (c.toNat + 32).isValidChar := by left; omega
      rw [Char.ofNat, dif_pos hval]
      rfl
    constructor
    · intro e
      rw [e] at hv
      exact .inr (toNat_inj (by omega))
    · rintro (rfl | rfl)
      · omega
      · exact toNat_inj (by omega)
  · rename_i h
    rw [hup] at h
    constructor
    · exact .inl
    · rintro (rfl | rfl)
      · rfl
      · omega

/-- A lower case word is matched in any case. -/
theorem eqIgnore_iff {text word : Str} (hw : ∀ d ∈ word, isLower d = true ∧ d.toUpper.toNat + 32 = d.toNat) :
    eqIgnoreAsciiCase text word = true ↔ Spec.AnyCase text word := by
  have hsame : word.map toAsciiLower = word := by
    conv_rhs => rw [← List.map_id word]
    apply List.map_congr_left
    intro d hd
    exact (lower_eq (hw d hd).1 (hw d hd).2).2 (.inl rfl)
  unfold eqIgnoreAsciiCase Spec.AnyCase
  rw [hsame, decide_eq_true_eq]
  clear hsame
  induction word generalizing text with
  | nil => simp
  | cons d word ih =>
    cases text with
    | nil => simp
    | cons c text =>
      have ih' := ih (text := text) (fun d hd => hw d (List.mem_cons_of_mem _ hd))
      rw [List.map_cons, List.cons.injEq, List.forall₂_cons, lower_eq (hw d (by simp)).1 (hw d (by simp)).2]
      exact and_congr_right fun _ => ih'

theorem filter_body (p : Str) :
    (split '/' (Path.front p).2).filter (fun x => !Path.skip x) = (split '/' p).filter (fun x => !Path.skip x) := by
  unfold Path.front
  split
  · rfl
  · rfl
  · rfl
  · rfl

theorem fileName_iff {p f : Str} :
    Path.fileName p = some f ↔
      ((split '/' p).filter (fun x => !Path.skip x)).getLast? = some f ∧ f ≠ "..".toList := by
  unfold Path.fileName Path.components
  rw [filter_body, List.getLast?_append, List.getLast?_map]
  cases h : ((split '/' p).filter (fun x => !Path.skip x)).getLast? with
  | none =>
    simp only [Option.map_none, Option.none_or]
    constructor
    · intro h'
      split at h'
      · rename_i h2
        split at h2
        · simp at h2
        · split at h2 <;> simp at h2
      · cases h'
    · rintro ⟨h', -⟩; cases h'
  | some g =>
    simp only [Option.map_some, Option.some_or, Path.toComponent]
    by_cases hg : g = ['.', '.']
    · rw [if_pos hg]
      constructor
      · intro h'; cases h'
      · rintro ⟨h1, h2⟩; cases h1; exact absurd hg h2
    · rw [if_neg hg]
      constructor
      · intro h'; cases h'; exact ⟨rfl, hg⟩
      · rintro ⟨h1, h2⟩; cases h1; rfl

theorem getLast_filter_iff {α : Type} {q : α → Bool} {l : List α} {f : α} :
    (l.filter q).getLast? = some f ↔ q f = true ∧ ∃ a b, l = a ++ f :: b ∧ ∀ x ∈ b, q x = false := by
  rw [← List.head?_reverse, ← List.filter_reverse, List.head?_filter, List.find?_eq_some_iff_append]
  constructor
  · rintro ⟨h, a, b, h1, h2⟩
    refine ⟨h, b.reverse, a.reverse, ?_, ?_⟩
    · have := congrArg List.reverse h1
      simpa using this
    · intro x hx
      simpa using h2 x (by simpa using hx)
  · rintro ⟨h, a, b, rfl, h2⟩
    exact ⟨h, b.reverse, a.reverse, by simp, fun x hx => by simpa using h2 x (by simpa using hx)⟩

/-- `Path::extension`, declaratively. -/
theorem extension_iff {p e : Str} :
    Path.extension p = some e ↔ ∃ stem, Spec.FileAt p stem e ∧ stem ≠ [] ∧ '.' ∉ e ∧ stem ++ ".".toList ++ e ≠ "..".toList := by
  unfold Path.extension
  constructor
  · intro h
    cases hf : Path.fileName p with
    | none => rw [hf] at h; cases h
    | some f =>
      rw [hf] at h
      simp only at h
      obtain ⟨h1, h2⟩ := fileName_iff.1 hf
      obtain ⟨h3, a, b, h4, h5⟩ := getLast_filter_iff.1 h1
      cases hr : rsplitOnce '.' f with
      | none => rw [hr] at h; cases h
      | some xy =>
        obtain ⟨x, y⟩ := xy
        rw [hr] at h
        obtain ⟨rfl, h6⟩ := rsplitOnce_eq_some.1 hr
        simp only at h
        split at h
        · cases h
        · rename_i hx
          cases h
          have hs := split_eq_iff.1 h4
          refine ⟨x, ⟨a, b, ?_, ?_, ?_, ?_, ?_⟩, hx, h6, ?_⟩
          · rw [← joinWith_split '/' p, h4]; simp
          · intro z hz; exact not_mem_of_mem_split (s := p) (by rw [h4]; simp [hz])
          · have := not_mem_of_mem_split (c := '/') (s := p) (p := x ++ '.' :: e) (by rw [h4]; simp)
            simp at this; exact this.1
          · have := not_mem_of_mem_split (c := '/') (s := p) (p := x ++ '.' :: e) (by rw [h4]; simp)
            simp at this; exact this.2
          · intro z hz
            have := h5 z hz
            simpa [Path.skip, Decidable.or_iff_not_imp_left] using this
          · simpa using h2
  · rintro ⟨stem, ⟨dirs, trail, hp, h1, h2, h3, h4⟩, h5, h6, h7⟩
    have hfn : Path.fileName p = some (stem ++ '.' :: e) := by
      rw [fileName_iff, getLast_filter_iff]
      refine ⟨⟨?_, dirs, trail, ?_, ?_⟩, by simpa using h7⟩
      · simp only [Path.skip, Bool.not_eq_true', Bool.or_eq_false_iff, decide_eq_false_iff_not]
        refine ⟨by simp, ?_⟩
        intro e'
        cases stem with
        | nil => exact h5 rfl
        | cons c stem => simp at e'
      · rw [hp, split_joinWith (by simp)]
        · simp
        · intro x hx
          simp only [List.mem_append, List.mem_cons] at hx
          rcases hx with hx | rfl | hx
          · exact h1 x hx
          · simp [h2, h3]
          · rcases h4 x hx with rfl | rfl <;> decide
      · intro x hx
        rcases h4 x hx with rfl | rfl <;> rfl
    rw [hfn]
    simp only
    rw [(rsplitOnce_eq_some (a := stem) (b := e)).2 ⟨rfl, h6⟩]
    simp [h5]

theorem lowerWord (w : Str) (h : w.all (fun d => isLower d && decide (d.toUpper.toNat + 32 = d.toNat)) = true) :
    ∀ d ∈ w, isLower d = true ∧ d.toUpper.toNat + 32 = d.toNat := by
  intro d hd
  have := List.all_eq_true.1 h d hd
  simpa using this

theorem anyCase_git {e : Str} (h : Spec.AnyCase e "git".toList) : e.length = 3 ∧ '.' ∉ e := by
  refine ⟨h.length_eq, ?_⟩
  intro hm
  have : ∀ (w : Str), (∀ d ∈ w, d ≠ '.' ∧ d.toUpper ≠ '.') → ∀ t, Spec.AnyCase t w → '.' ∉ t := by
    intro w hw t ht
    unfold Spec.AnyCase at ht
    induction ht with
    | nil => simp
    | cons h _ ih =>
      intro hm
      rcases List.mem_cons.1 hm with rfl | hm
      · rcases h with h | h
        · exact (hw _ (by simp)).1 h.symm
        · exact (hw _ (by simp)).2 h.symm
      · exact ih (fun d hd => hw d (by simp [hd])) hm
  exact this "git".toList (by decide) e h hm

/-- A context is a git URL exactly when it is an HTTP URL (in any case) with a file name ending in `.git` (in any
case). -/
theorem C64_is_git_repo_url (c : Context) : c.isGitRepoUrl = true ↔ ∃ u, c = .url u ∧ Spec.GitUrl u := by
  cases c with
  | path p => simp [Context.isGitRepoUrl, Context.asUrl]
  | url u =>
    unfold Context.isGitRepoUrl Context.asUrl Spec.GitUrl
    simp only [Context.url.injEq, exists_eq_left', Bool.and_eq_true, Bool.or_eq_true]
    rw [eqIgnore_iff (lowerWord _ (by decide)), eqIgnore_iff (lowerWord _ (by decide))]
    apply and_congr_right
    intro _
    cases he : Path.extension u.path with
    | none =>
      simp only [Bool.false_eq_true, false_iff]
      rintro ⟨stem, ext, h1, h2, h3⟩
      obtain ⟨h4, h5⟩ := anyCase_git h3
      have := extension_iff.2 ⟨stem, h1, h2, h5, by
        intro e
        have := congrArg List.length e
        simp at this; omega⟩
      rw [he] at this
      cases this
    | some e =>
      simp only
      rw [eqIgnore_iff (lowerWord _ (by decide))]
      constructor
      · intro h
        obtain ⟨stem, h1, h2, -⟩ := extension_iff.1 he
        exact ⟨stem, e, h1, h2, h⟩
      · rintro ⟨stem, ext, h1, h2, h3⟩
        obtain ⟨h4, h5⟩ := anyCase_git h3
        have := extension_iff.2 ⟨stem, h1, h2, h5, by
          intro e
          have := congrArg List.length e
          simp at this; omega⟩
        rw [he] at this
        cases this
        exact h3

/-- The branch or tag of a context: of a git URL with a fragment, the text before the first `:`, or the whole fragment
if there is none. -/
theorem C64_branch_or_tag (c : Context) (b : Str) :
    c.branchOrTag = some b ↔
      ∃ u f, c = .url u ∧ Spec.GitUrl u ∧ u.fragment = some f ∧ ':' ∉ b ∧ (f = b ∨ ∃ d, f = b ++ ":".toList ++ d) := by
  unfold Context.branchOrTag
  by_cases hg : c.isGitRepoUrl = true
  · obtain ⟨u, rfl, hu⟩ := (C64_is_git_repo_url c).1 hg
    rw [hg]
    simp only [Bool.not_true, Bool.false_eq_true, if_false, Context.asUrl, Option.bind_some]
    cases hf : u.fragment with
    | none =>
      simp only [Option.bind_none, reduceCtorEq, false_iff]
      rintro ⟨v, f, hv, -, h, -⟩
      cases hv; rw [hf] at h; cases h
    | some f =>
      simp only [Option.bind_some, Context.branchOfFragment]
      cases hs : splitOnce ':' f with
      | none =>
        rw [splitOnce_eq_none] at hs
        constructor
        · intro h; cases h; exact ⟨u, _, rfl, hu, hf, hs, .inl rfl⟩
        · rintro ⟨v, g, hv, -, h, -, h'⟩
          cases hv; rw [hf] at h; cases h
          rcases h' with rfl | ⟨d, rfl⟩
          · rfl
          · exact absurd (by simp) hs
      | some xy =>
        obtain ⟨x, y⟩ := xy
        obtain ⟨rfl, h2⟩ := splitOnce_eq_some.1 hs
        constructor
        · intro h; cases h; exact ⟨u, _, rfl, hu, hf, h2, .inr ⟨y, by simp⟩⟩
        · rintro ⟨v, g, hv, -, h, h3, h'⟩
          cases hv; rw [hf] at h; cases h
          rcases h' with rfl | ⟨d, hd⟩
          · exact absurd (by simp) h3
          · have := (splitOnce_eq_some (a := b) (b := d)).2 ⟨by simpa using hd, h3⟩
            rw [hs] at this; cases this; rfl
  · have hn : ¬ ∃ u, c = .url u ∧ Spec.GitUrl u := fun h => hg ((C64_is_git_repo_url c).2 h)
    have hg' : c.isGitRepoUrl = false := by simpa using hg
    rw [hg']
    simp only [Bool.not_false, if_true, reduceCtorEq, false_iff]
    rintro ⟨u, f, h1, h2, -⟩
    exact hn ⟨u, h1, h2⟩

/-- The subdirectory of a context: of a git URL whose fragment has a `:`, the text after the first one. -/
theorem C64_subdirectory (c : Context) (d : Str) :
    c.subdirectory = some d ↔
      ∃ u b, c = .url u ∧ Spec.GitUrl u ∧ ':' ∉ b ∧ u.fragment = some (b ++ ":".toList ++ d) := by
  unfold Context.subdirectory
  by_cases hg : c.isGitRepoUrl = true
  · obtain ⟨u, rfl, hu⟩ := (C64_is_git_repo_url c).1 hg
    rw [hg]
    simp only [Bool.not_true, Bool.false_eq_true, if_false, Context.asUrl, Option.bind_some]
    cases hf : u.fragment with
    | none =>
      simp only [Option.bind_none, Option.map_none, reduceCtorEq, false_iff]
      rintro ⟨v, f, hv, -, -, h⟩
      cases hv; rw [hf] at h; cases h
    | some f =>
      simp only [Option.bind_some, Option.map_eq_some_iff]
      constructor
      · rintro ⟨⟨x, y⟩, h, rfl⟩
        obtain ⟨rfl, h2⟩ := splitOnce_eq_some.1 h
        exact ⟨u, x, rfl, hu, h2, by simp [hf]⟩
      · rintro ⟨v, x, hv, -, h2, h⟩
        cases hv; rw [hf] at h; cases h
        exact ⟨(x, d), splitOnce_eq_some.2 ⟨by simp, h2⟩, rfl⟩
  · have hn : ¬ ∃ u, c = .url u ∧ Spec.GitUrl u := fun h => hg ((C64_is_git_repo_url c).2 h)
    have hg' : c.isGitRepoUrl = false := by simpa using hg
    rw [hg']
    simp only [Bool.not_false, if_true, reduceCtorEq, false_iff]
    rintro ⟨u, b, h1, h2, -⟩
    exact hn ⟨u, h1, h2⟩

/-- A text is a URL context exactly when it is a URL, and a path with that text otherwise; a context is read back from
its text exactly when its path is not a URL or its URL is read back from its own text. -/
theorem C64_context_parse (parseUrl : Str → Option Url) :
    (∀ s c, Context.parse parseUrl s = c ↔
      (∃ u, parseUrl s = some u ∧ c = .url u) ∨ (parseUrl s = none ∧ c = .path s)) ∧
    (∀ p, Context.parse parseUrl (Context.show (.path p)) = .path p ↔ parseUrl p = none) ∧
    (∀ u, Context.parse parseUrl (Context.show (.url u)) = .url u ↔ parseUrl u.text = some u) := by
  refine ⟨fun s c => ?_, fun p => ?_, fun u => ?_⟩
  · unfold Context.parse
    cases parseUrl s <;> simp [eq_comm]
  · unfold Context.parse Context.show
    cases h : parseUrl p <;> simp
  · unfold Context.parse Context.show
    cases h : parseUrl u.text <;> simp

/-- `https://github.com/example/example.git#v1:sub`, as the `url` crate splits it. -/
def exampleUrl : Url :=
  ⟨"https://github.com/example/example.git#v1:sub".toList, "https".toList, "/example/example.git".toList,
    some "v1:sub".toList⟩

/-- A context that is a URL, if `exampleUrl` is the one URL there is. -/
example : Context.parse (fun s => if s = exampleUrl.text then some exampleUrl else none) (Context.show (.url exampleUrl)) =
    .url exampleUrl := ((C64_context_parse _).2.2 _).2 (if_pos rfl)

example : Context.branchOrTag (.url exampleUrl) = some "v1".toList := by decide
example : Context.subdirectory (.url exampleUrl) = some "sub".toList := by decide
example : Context.branchOrTag (.url { exampleUrl with fragment := some ":sub".toList }) = some [] := by decide
example : Context.subdirectory (.url { exampleUrl with fragment := some "v1".toList }) = none := by decide
example : Context.isGitRepoUrl (.url { exampleUrl with path := "/.git".toList }) = false := by decide
example : Context.isGitRepoUrl (.url { exampleUrl with path := "/a.GIT/./".toList, scheme := "Http".toList }) = true := by
  decide
example : Context.isGitRepoUrl (.url { exampleUrl with scheme := "ssh".toList }) = false := by decide

/-- The theorems apply to this URL. -/
example : Spec.GitUrl exampleUrl := by
  obtain ⟨u, h, hu⟩ := (C64_is_git_repo_url (.url exampleUrl)).1 (by decide)
  cases h; exact hu
example : ∃ f, exampleUrl.fragment = some f ∧ (f = "v1".toList ∨ ∃ d, f = "v1".toList ++ ":".toList ++ d) := by
  obtain ⟨u, f, h, _, hf, _, h'⟩ := (C64_branch_or_tag (.url exampleUrl) "v1".toList).1 (by decide)
  cases h; exact ⟨f, hf, h'⟩
example : ∃ b, ':' ∉ b ∧ exampleUrl.fragment = some (b ++ ":".toList ++ "sub".toList) := by
  obtain ⟨u, b, h, _, hb, hf⟩ := (C64_subdirectory (.url exampleUrl) "sub".toList).1 (by decide)
  cases h; exact ⟨b, hb, hf⟩

end Props
