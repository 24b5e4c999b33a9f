import Verif.Spec.Reasons
import Verif.Proofs.Number
import Verif.Proofs.Image
import Verif.Props.Keys
import Verif.Props.Mac

/- Lemmas for C92. -/

namespace Props
open Rust Compose Spec Re

/-! ### Splitting -/

theorem split_eq_splitOn (c : Char) (s : Str) : split c s = s.splitOn c := by
  induction s with
  | nil => rfl
  | cons x xs ih =>
    have hne := split_ne_nil c xs
    unfold List.splitOn at ih ⊢
    rw [List.splitOnP_cons_eq_if_modifyHead, ← ih]
    rw [split.eq_2]
    by_cases h : x = c
    · simp [h]
    · simp only [h, if_false, beq_iff_eq]
      cases hs : split c xs with
      | nil => exact absurd hs hne
      | cons p ps => rfl

/-- A piece of a text is surrounded by separators. -/
theorem mem_splitOn {c : Char} {s p : Str} (h : p ∈ s.splitOn c) :
    ∃ a b, s = a ++ p ++ b ∧ (a = [] ∨ a.getLast? = some c) ∧ (b = [] ∨ b.head? = some c) ∧ c ∉ p := by
  rw [← split_eq_splitOn] at h
  have hc := not_mem_of_mem_split h
  obtain ⟨pre, post, hs⟩ := List.mem_iff_append.1 h
  have hj := joinWith_split c s
  rw [hs] at hj
  clear h hs
  suffices ∃ a b, s = a ++ p ++ b ∧ (a = [] ∨ a.getLast? = some c) ∧ (b = [] ∨ b.head? = some c) by
    obtain ⟨a, b, h1, h2, h3⟩ := this; exact ⟨a, b, h1, h2, h3, hc⟩
  induction pre generalizing s with
  | nil =>
    cases post with
    | nil => exact ⟨[], [], by simpa [joinWith] using hj.symm, .inl rfl, .inl rfl⟩
    | cons q qs => exact ⟨[], c :: joinWith c (q :: qs), by simpa [joinWith] using hj.symm, .inl rfl, .inr rfl⟩
  | cons x xs ih =>
    obtain ⟨a, b, h1, h2, h3⟩ := ih rfl
    refine ⟨x ++ c :: a, b, ?_, ?_, h3⟩
    · rw [← hj]
      cases xs <;> simp_all [joinWith]
    · right
      rcases h2 with rfl | h2
      · simp
      · cases a with
        | nil => simp at h2
        | cons y ys => simp [List.getLast?_append, List.getLast?_cons_cons, h2]

/-! ### Numbers -/

/-- The value of digits. -/
private def valueOf (dig : Char → Option Nat) (radix : Nat) (acc : Nat) (ds : Str) : Nat :=
  ds.foldl (fun n c => n * radix + (dig c).getD 0) acc

private theorem parseDigits_reason {dig : Char → Option Nat} {radix max acc : Nat} {s : Str} {e : IntErr}
    (h : parseDigits dig radix max acc s = .error e) :
    (e = .invalidDigit ∧ ∃ c ∈ s, dig c = none) ∨
    (e = .posOverflow ∧ ∃ ds rest, s = ds ++ rest ∧ ds ≠ [] ∧ (∀ c ∈ ds, ∃ d, dig c = some d) ∧
      max < valueOf dig radix acc ds) := by
  induction s generalizing acc with
  | nil => cases h
  | cons c cs ih =>
    rw [parseDigits] at h
    cases hd : dig c with
    | none => rw [hd] at h; cases h; exact .inl ⟨rfl, c, by simp, hd⟩
    | some d =>
      rw [hd] at h
      simp only at h
      split at h
      · cases h
        refine .inr ⟨rfl, [c], cs, rfl, by simp, by simp [hd], ?_⟩
        simpa [valueOf, hd]
      · rcases ih h with ⟨rfl, x, hx, hn⟩ | ⟨rfl, ds, rest, rfl, hne, hds, hv⟩
        · exact .inl ⟨rfl, x, by simp [hx], hn⟩
        · refine .inr ⟨rfl, c :: ds, rest, rfl, by simp, ?_, ?_⟩
          · intro x hx
            rcases List.mem_cons.1 hx with rfl | hx
            · exact ⟨d, hd⟩
            · exact hds x hx
          · simpa [valueOf, hd] using hv

private theorem parseRadix_reason {dig : Char → Option Nat} {radix max : Nat} {s : Str} {e : IntErr}
    (h : parseRadix dig radix max s = .error e) (hp : dig '+' = none) :
    (e = .empty ∧ s = []) ∨
    (e = .invalidDigit ∧ s ≠ [] ∧ ∀ ds, Signed ds s → ds ≠ [] → ∃ c ∈ ds, dig c = none) ∨
    (e = .posOverflow ∧ ∃ ds rest, Signed (ds ++ rest) s ∧ ds ≠ [] ∧ (∀ c ∈ ds, ∃ d, dig c = some d) ∧
      max < valueOf dig radix 0 ds) := by
  unfold parseRadix at h
  split at h
  · cases h; exact .inl ⟨rfl, rfl⟩
  · cases h
    refine .inr (.inl ⟨rfl, by simp, ?_⟩)
    rintro ds (hds | hds) hne
    · subst hds; exact ⟨'+', by simp, hp⟩
    · simp at hds; exact absurd hds hne
  · rename_i cs hcs
    rcases parseDigits_reason h with ⟨rfl, c, hc, hn⟩ | ⟨rfl, ds, rest, rfl, hne, hds, hv⟩
    · refine .inr (.inl ⟨rfl, by simp, ?_⟩)
      rintro ds (rfl | hds) _
      · exact ⟨c, by simp [hc], hn⟩
      · simp at hds; subst hds; exact ⟨c, hc, hn⟩
    · exact .inr (.inr ⟨rfl, ds, rest, .inr rfl, hne, hds, hv⟩)
  · rename_i h1 h2 h3
    rcases parseDigits_reason h with ⟨rfl, c, hc, hn⟩ | ⟨rfl, ds, rest, rfl, hne, hds, hv⟩
    · refine .inr (.inl ⟨rfl, h1, ?_⟩)
      rintro ds (rfl | hds) _
      · exact ⟨c, hc, hn⟩
      · exact absurd hds (h3 ds)
    · exact .inr (.inr ⟨rfl, ds, rest, .inl rfl, hne, hds, hv⟩)

/-- Rust's integer parser gives a true reason. -/
theorem number_reason {max : Nat} {s : Str} {e : IntErr} (h : parseUnsigned max s = .error e) :
    NumberReason max s e := by
  rcases parseRadix_reason h (by decide) with ⟨rfl, rfl⟩ | ⟨rfl, hs, hn⟩ | ⟨rfl, ds, rest, hs, hne, hds, hv⟩
  · rfl
  · refine ⟨hs, ?_⟩
    rintro ⟨ds, h1, h2⟩
    obtain ⟨c, hc, hc'⟩ := hn ds h1 h2.1
    have := (isNumber_iff.1 h2).2 c hc
    rw [toDigit_eq_none] at hc'; simp [this] at hc'
  · have hd : ∀ c ∈ ds, isDigit c = true := fun c hc => by
      obtain ⟨d, h⟩ := hds c hc; exact (toDigit_eq_some.1 h).1
    refine ⟨ds, rest, hs, isNumber_iff.2 ⟨hne, hd⟩, ?_⟩
    have : valueOf toDigit 10 0 ds = decimal ds := by
      rw [decimal_eq]; unfold valueOf digitsValue
      have : ∀ acc, List.foldl (fun n c => n * 10 + (toDigit c).getD 0) acc ds =
          List.foldl (fun acc c => acc * 10 + (c.toNat - 48)) acc ds := by
        clear hv hs hne hds
        induction ds with
        | nil => intro acc; rfl
        | cons c cs ih =>
          intro acc
          have hc := hd c (by simp)
          simp only [List.foldl_cons, toDigit, hc, if_true, Option.getD_some]
          exact ih (fun x hx => hd x (by simp [hx])) _
      exact this 0
    omega

private theorem hexText_value {ds : Str} (hne : ds ≠ []) (h : ∀ c ∈ ds, ∃ d, toHexDigit c = some d) :
    HexText ds (valueOf toHexDigit 16 0 ds) := by
  induction ds using List.reverseRecOn with
  | nil => exact absurd rfl hne
  | append_singleton ds c ih =>
    obtain ⟨d, hd⟩ := h c (by simp)
    by_cases hds : ds = []
    · subst hds
      simpa [valueOf, hd] using HexText.digit (hexDigit_iff.1 hd)
    · have := ih hds (fun x hx => h x (by simp [hx]))
      have h2 := HexText.snoc this (hexDigit_iff.1 hd)
      rw [Nat.mul_comm] at h2
      simpa [valueOf, hd] using h2

/-- The same for hexadecimal bytes. -/
theorem hex_reason {s : Str} {e : IntErr} (h : parseHexU8 s = .error e) : HexReason s e := by
  rcases parseRadix_reason h (by decide) with ⟨rfl, rfl⟩ | ⟨rfl, hs, hn⟩ | ⟨rfl, ds, rest, hs, hne, hds, hv⟩
  · rfl
  · refine ⟨hs, ?_⟩
    rintro ⟨ds, n, h1, h2⟩
    obtain ⟨c, hc, hc'⟩ := hn ds h1 (hexText_ne_nil h2)
    clear h1
    induction h2 with
    | digit hd => simp at hc; subst hc; rw [hexDigit_iff.2 hd] at hc'; cases hc'
    | snoc h hd ih =>
      rcases List.mem_append.1 hc with hc | hc
      · exact ih hc
      · simp at hc; subst hc; rw [hexDigit_iff.2 hd] at hc'; cases hc'
  · exact ⟨ds, rest, _, hs, hexText_value hne hds, hv⟩

/-! ### Characters -/

/-- The first character found by a loop is the first bad one. -/
theorem firstBad_of_find {p : Char → Bool} {allowed : List Char} {s : Str} {c : Char}
    (hp : ∀ x, x ∈ allowed ↔ p x = true) (h : s.find? (fun c => !p c) = some c) : FirstBad allowed s c := by
  obtain ⟨hc, a, b, hs, ha⟩ := List.find?_eq_some_iff_append.1 h
  refine ⟨a, b, hs, fun x hx => (hp x).2 ?_, fun h => ?_⟩
  · simpa using ha x hx
  · simp [(hp c).1 h] at hc

theorem firstBad_cons {allowed : List Char} {s : Str} {c x : Char} (hx : x ∈ allowed) (h : FirstBad allowed s c) :
    FirstBad allowed (x :: s) c := by
  obtain ⟨a, b, rfl, ha, hc⟩ := h
  exact ⟨x :: a, b, rfl, by simpa [hx] using ha, hc⟩

/-! ### User names -/

private theorem userNameLoop_error {len n : Nat} {fn : Bool} {s : Str} {e : UserNameError} (hlen : len = n + byteLen s)
    (h : userNameLoop len n fn s = .error e) :
    (∃ c, e = .character c ∧ FirstBad (alnum ++ "_-$".toList) s c) ∨
    (e = .dollarSign ∧ ∃ a b, s = a ++ '$' :: b ∧ b ≠ []) := by
  induction s generalizing n fn with
  | nil => cases h
  | cons c cs ih =>
    have hb : ∀ {c : Char}, c ∈ alnum ++ "_-$".toList → byteLen (c :: cs) = byteLen cs + 1 := by
      have : ∀ c ∈ alnum ++ "_-$".toList, c.toNat < 128 := by decide
      intro c hc
      have := byteLen_of_ascii (s := [c]) (by simpa using this c hc)
      simp [byteLen] at this ⊢
      omega
    have hrec : ∀ {fn' : Bool}, c ∈ alnum ++ "_-$".toList → userNameLoop len (n + 1) fn' cs = .error e →
        (∃ x, e = .character x ∧ FirstBad (alnum ++ "_-$".toList) (c :: cs) x) ∨
        (e = .dollarSign ∧ ∃ a b, c :: cs = a ++ '$' :: b ∧ b ≠ []) := by
      intro fn' hc h
      rcases ih (by rw [hlen, hb hc]; omega) h with ⟨x, rfl, hx⟩ | ⟨rfl, a, b, rfl, hn⟩
      · exact .inl ⟨x, rfl, firstBad_cons hc hx⟩
      · exact .inr ⟨rfl, c :: a, b, rfl, hn⟩
    have hmem : c ∈ alnum ++ "_-$".toList ↔ (isLower c || isUpper c || c == '_' || c == '-' || c == '$') = true ∨
        isDigit c = true := by
      simp only [List.mem_append, mem_alnum, isAlnum, isAlpha]
      simp
      grind
    rw [userNameLoop] at h
    split at h
    · rename_i hc
      have hc' := hmem.2 (.inl hc)
      split at h
      · rename_i hd
        cases h
        obtain ⟨rfl, hn⟩ := hd
        refine .inr ⟨rfl, [], cs, rfl, ?_⟩
        rintro rfl
        have := hb hc'
        simp only [this] at hlen
        have : byteLen [] = 0 := rfl
        omega
      · exact hrec hc' h
    · rename_i h1
      split at h
      · rename_i h2
        exact hrec (hmem.2 (.inr h2)) h
      · rename_i h2
        cases h
        exact .inl ⟨c, rfl, [], cs, rfl, by simp, fun h => (hmem.1 h).elim h1 h2⟩

/-- Why a user or group name is refused. -/
theorem userName_reason {s : Str} {e : UserNameError} (h : userNameNew s = .error e) : UserNameReason s e := by
  unfold userNameNew at h
  split at h
  · rename_i hs; cases h; simpa [UserNameReason] using hs
  · rename_i hs
    split at h
    · rename_i e' he
      cases h
      rcases userNameLoop_error (by simp) he with ⟨c, rfl, hc⟩ | ⟨rfl, hd⟩
      · exact hc
      · exact hd
    · rename_i fn hfn
      have hlen := userName_byteLen_of_loop hfn
      split at h
      · rename_i hn
        cases h
        refine isNumber_iff.2 ⟨by simpa using hs, ?_⟩
        rw [userNameLoop_ok (by simp [hlen])] at hfn
        obtain ⟨-, -, rfl⟩ := hfn
        simpa using hn
      split at h
      · rename_i hh; cases h; exact hh
      split at h
      · rename_i hl; cases h; show 32 < s.length; omega
      · cases h

/-- Why a user or group is refused. -/
theorem idOrName_reason {s : Str} {e : UserNameError} (h : IdOrName.parse s = .error e) : IdOrNameReason s e := by
  unfold IdOrName.parse at h
  split at h
  · rename_i e' he
    cases hn : userNameNew s with
    | ok n => rw [hn] at h; cases h
    | error e'' =>
      rw [hn] at h; cases h
      refine ⟨userName_reason hn, ?_⟩
      rintro ⟨n, hu⟩
      rw [show 2 ^ 32 - 1 = u32Max from rfl, ← parseUnsigned_iff, he] at hu
      cases hu
  · cases h

/-! ### Image names -/

/-- What the loop has read of the current run of separators. -/
private def RunState (r : Str) (d u : Nat) (p : Bool) : Prop :=
  (r = [] ∧ d = 0 ∧ u = 0 ∧ p = false) ∨ ((r ≠ [] ∧ ∀ c ∈ r, c = '-') ∧ d = 0 ∧ u = 0 ∧ p = true) ∨
  (r = ['.'] ∧ d = 1 ∧ u = 0 ∧ p = false) ∨ (r = ['_'] ∧ d = 0 ∧ u = 1 ∧ p = false) ∨
  (r = ['_', '_'] ∧ d = 0 ∧ u = 2 ∧ p = false)

private theorem validatePartLoop_error {r s : Str} {d u : Nat} {p : Bool} {e : Image.NamePartError}
    (hr : RunState r d u p) (h : Image.validatePartLoop d u p s = .error e) :
    (e = .multipleSeparators ∧
      ∃ a run b, r ++ s = a ++ run ++ b ∧ run ≠ [] ∧ (∀ c ∈ run, c ∈ "._-".toList) ∧ ¬ nameSeparator run) ∨
    (∃ c, e = .character c ∧ FirstBad (lowerAlnum ++ "._-".toList) s c) := by
  induction s generalizing r d u p with
  | nil => cases h
  | cons c cs ih =>
    have hr' : ∀ x ∈ r, x ∈ "._-".toList := by
      rcases hr with ⟨rfl, -⟩ | ⟨⟨-, h⟩, -⟩ | ⟨rfl, -⟩ | ⟨rfl, -⟩ | ⟨rfl, -⟩
      · simp
      · intro x hx; rw [h x hx]; decide
      · decide
      · decide
      · decide
    have hstop : c ∈ "._-".toList → ¬ nameSeparator (r ++ [c]) →
        ∃ a run b, r ++ c :: cs = a ++ run ++ b ∧ run ≠ [] ∧ (∀ c ∈ run, c ∈ "._-".toList) ∧ ¬ nameSeparator run := by
      intro hc hn
      refine ⟨[], r ++ [c], cs, by simp, by simp, ?_, hn⟩
      intro x hx
      rcases List.mem_append.1 hx with hx | hx
      · exact hr' x hx
      · simp at hx; subst hx; exact hc
    have hgo : ∀ {r' d' u' p'}, (∃ q, r ++ [c] = q ++ r') → c ∈ lowerAlnum ++ "._-".toList → RunState r' d' u' p' →
        Image.validatePartLoop d' u' p' cs = .error e →
        (e = .multipleSeparators ∧
          ∃ a run b, r ++ c :: cs = a ++ run ++ b ∧ run ≠ [] ∧ (∀ c ∈ run, c ∈ "._-".toList) ∧ ¬ nameSeparator run) ∨
        (∃ x, e = .character x ∧ FirstBad (lowerAlnum ++ "._-".toList) (c :: cs) x) := by
      rintro r' d' u' p' ⟨q, hq⟩ hc hst h
      rcases ih hst h with ⟨rfl, a, run, b, h1, h2⟩ | ⟨x, rfl, hx⟩
      · refine .inl ⟨rfl, q ++ a, run, b, ?_, h2⟩
        rw [show r ++ c :: cs = r ++ [c] ++ cs by simp, hq, List.append_assoc, h1]
        simp
      · exact .inr ⟨x, rfl, firstBad_cons hc hx⟩
    rw [Image.validatePartLoop] at h
    split at h
    · rename_i hc
      refine hgo (r' := []) ⟨r ++ [c], by simp⟩ ?_ (.inl ⟨rfl, rfl, rfl, rfl⟩) h
      simp [mem_lowerAlnum, hc]
    split at h
    · rename_i hc
      subst hc
      split at h
      · rename_i hz
        obtain ⟨rfl, rfl⟩ := hz
        refine hgo (r' := r ++ ['-']) ⟨[], by simp⟩ (by decide) (.inr (.inl ⟨⟨by simp, ?_⟩, rfl, rfl, rfl⟩)) h
        rcases hr with ⟨rfl, -⟩ | ⟨⟨-, h⟩, -⟩ | ⟨-, h, -⟩ | ⟨-, -, h, -⟩ | ⟨-, -, h, -⟩
        · simp
        · intro x hx; rcases List.mem_append.1 hx with hx | hx
          · exact h x hx
          · simpa using hx
        all_goals cases h
      · rename_i hz
        cases h
        refine .inl ⟨rfl, hstop (by decide) ?_⟩
        rw [Proofs.nameSeparator_iff]
        rcases hr with ⟨rfl, rfl, rfl, -⟩ | ⟨⟨-, h⟩, rfl, rfl, -⟩ | ⟨rfl, -⟩ | ⟨rfl, -⟩ | ⟨rfl, -⟩
        · simp at hz
        · simp at hz
        all_goals simp
    split at h
    · rename_i hc
      subst hc
      split at h
      · rename_i hz
        obtain ⟨hd, rfl, rfl⟩ := hz
        have hd : d = 0 := by omega
        subst hd
        rcases hr with ⟨rfl, -⟩ | ⟨-, -, -, h⟩ | ⟨-, h, -⟩ | ⟨-, -, h, -⟩ | ⟨-, -, h, -⟩
        · exact hgo (r' := ['.']) ⟨[], by simp⟩ (by decide) (.inr (.inr (.inl ⟨rfl, rfl, rfl, rfl⟩))) h
        all_goals cases h
      · rename_i hz
        cases h
        refine .inl ⟨rfl, hstop (by decide) ?_⟩
        rw [Proofs.nameSeparator_iff]
        rcases hr with ⟨rfl, rfl, rfl, rfl⟩ | ⟨⟨hn, h⟩, rfl, rfl, -⟩ | ⟨rfl, -⟩ | ⟨rfl, -⟩ | ⟨rfl, -⟩
        · simp at hz
        · cases r with
          | nil => exact absurd rfl hn
          | cons x xs =>
            have := h x (by simp); subst this
            simp
        all_goals simp
    split at h
    · rename_i hc
      subst hc
      split at h
      · rename_i hz
        obtain ⟨rfl, hu, rfl⟩ := hz
        rcases hr with ⟨rfl, -, rfl, -⟩ | ⟨-, -, -, h⟩ | ⟨-, h, -⟩ | ⟨rfl, -, rfl, -⟩ | ⟨-, -, rfl, -⟩
        · exact hgo (r' := ['_']) ⟨[], by simp⟩ (by decide) (.inr (.inr (.inr (.inl ⟨rfl, rfl, rfl, rfl⟩)))) h
        · cases h
        · cases h
        · exact hgo (r' := ['_', '_']) ⟨[], by simp⟩ (by decide) (.inr (.inr (.inr (.inr ⟨rfl, rfl, rfl, rfl⟩)))) h
        · omega
      · rename_i hz
        cases h
        refine .inl ⟨rfl, hstop (by decide) ?_⟩
        rw [Proofs.nameSeparator_iff]
        rcases hr with ⟨rfl, rfl, rfl, rfl⟩ | ⟨⟨hn, h⟩, rfl, rfl, -⟩ | ⟨rfl, -⟩ | ⟨rfl, rfl, rfl, rfl⟩ | ⟨rfl, -⟩
        · simp at hz
        · cases r with
          | nil => exact absurd rfl hn
          | cons x xs =>
            have := h x (by simp); subst this
            simp
        · simp
        · simp at hz
        · simp
    · rename_i h1 h2 h3 h4
      cases h
      refine .inr ⟨c, rfl, [], cs, rfl, by simp, ?_⟩
      simp only [List.mem_append, mem_lowerAlnum]
      simp_all

/-- Why a part of an image name is refused. -/
theorem namePart_reason {s : Str} {e : Image.NamePartError} (h : Image.validatePart s = .error e) :
    NamePartReason s e := by
  unfold Image.validatePart at h
  split at h
  · rename_i e' he
    cases h
    rcases validatePartLoop_error (r := []) (.inl ⟨rfl, rfl, rfl, rfl⟩) he with ⟨rfl, h⟩ | ⟨c, rfl, h⟩
    · exact h
    · exact h
  · split at h
    · rename_i hs; cases h; simpa [NamePartReason] using hs
    rename_i hs
    split at h
    · rename_i hh
      cases h
      cases s with
      | nil => simp at hs
      | cons c cs =>
        refine ⟨c, rfl, ?_⟩
        rw [← Proofs.charIsAlnum_iff]; simpa using hh
    split at h
    · rename_i hh
      cases h
      cases hl : s.getLast? with
      | none => simp at hl; simp [hl] at hs
      | some c =>
        refine ⟨c, hl, ?_⟩
        rw [← Proofs.charIsAlnum_iff]; simpa [hl] using hh
    · cases h

theorem validateParts_error {ps : List Str} {e : Image.NamePartError} (h : Image.validateParts ps = .error e) :
    ∃ p ∈ ps, NamePartReason p e := by
  induction ps with
  | nil => cases h
  | cons p ps ih =>
    rw [Image.validateParts] at h
    split at h
    · rename_i e' he; cases h; exact ⟨p, by simp, namePart_reason he⟩
    · obtain ⟨q, hq, hr⟩ := ih h; exact ⟨q, by simp [hq], hr⟩

/-- Why an image name is refused. -/
theorem imageName_reason {s : Str} {e : Image.NamePartError} (h : Image.Name.new s = .error e) :
    ImageNameReason s e := by
  unfold Image.Name.new at h
  rw [split_eq_splitOn] at h
  unfold ImageNameReason
  cases hs : s.splitOn '/' with
  | nil => rw [hs] at h; cases h
  | cons first parts =>
    rw [hs] at h
    simp only [List.head?_cons, Option.some.injEq]
    unfold Image.firstPart at h
    simp only at h
    by_cases hd : first.contains '.' = true
    · rw [if_pos hd] at h
      have hd' : '.' ∈ first := by simpa using hd
      cases hc : splitOnce ':' first with
      | none =>
        rw [hc] at h
        simp only at h
        split at h
        · rename_i e' he; cases h; exact .inl ⟨first, by simp, namePart_reason he⟩
        split at h
        · rename_i e' he; cases h
          obtain ⟨q, hq, hr⟩ := validateParts_error he
          exact .inl ⟨q, by simp [hq], hr⟩
        · cases h
      | some hp =>
        obtain ⟨host, port⟩ := hp
        obtain ⟨hf, hn⟩ := splitOnce_eq_some.1 hc
        rw [hc] at h
        simp only at h
        cases hport : parseUnsigned u16Max port with
        | error source =>
          rw [hport] at h; cases h
          exact .inr ⟨host, port, by simpa using hf, hn, by simpa [hf] using hd', .inr ⟨source, rfl, number_reason hport⟩⟩
        | ok n =>
          rw [hport] at h
          simp only at h
          split at h
          · rename_i e' he; cases h
            exact .inr ⟨host, port, by simpa using hf, hn, by simpa [hf] using hd', .inl (namePart_reason he)⟩
          split at h
          · rename_i e' he; cases h
            obtain ⟨q, hq, hr⟩ := validateParts_error he
            exact .inl ⟨q, by simp [hq], hr⟩
          · cases h
    · rw [if_neg hd] at h
      simp only at h
      split at h
      · rename_i e' he; cases h; exact .inl ⟨first, by simp, namePart_reason he⟩
      split at h
      · rename_i e' he; cases h
        obtain ⟨q, hq, hr⟩ := validateParts_error he
        exact .inl ⟨q, by simp [hq], hr⟩
      · cases h

end Props
