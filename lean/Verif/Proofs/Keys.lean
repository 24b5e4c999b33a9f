import Verif.Model.Keys
import Verif.Spec.Keys
import Verif.Proofs.Regex

/- Helper lemmas for the validated string types. -/

namespace Compose
open Rust Re

theorem mem_identifier_tail {c : Char} :
    c ∈ alnum ++ "._-".toList ↔ identifierChar c = true := by
  simp [identifierChar, mem_alnum]; grind

theorem mem_projectName_tail {c : Char} :
    c ∈ lowerAlnum ++ "_-".toList ↔ (isLower c || isDigit c || c == '_' || c == '-') = true := by
  simp [mem_lowerAlnum]; grind

theorem find?_not_eq_none {p : Char → Bool} {s : Str} :
    s.find? (fun c => !p c) = none ↔ ∀ c ∈ s, p c = true := by
  simp [List.find?_eq_none]

/-- `find?` of the first bad character, as a decomposition of the string. -/
theorem find?_not_eq_some {p : Char → Bool} {s : Str} {c : Char} :
    s.find? (fun c => !p c) = some c ↔
      ∃ a b, s = a ++ c :: b ∧ p c = false ∧ ∀ x ∈ a, p x = true := by
  rw [List.find?_eq_some_iff_append]
  constructor
  · rintro ⟨h, a, b, rfl, h2⟩
    exact ⟨a, b, rfl, by simpa using h, by simpa using h2⟩
  · rintro ⟨a, b, rfl, h, h2⟩
    exact ⟨by simpa using h, a, b, rfl, by simpa using h2⟩

theorem hostnameLabelError_eq_none {l : Str} :
    hostnameLabelError l = none ↔ Spec.HostLabel l := by
  unfold hostnameLabelError Spec.HostLabel
  rw [seq_cls]
  have hcls : ∀ c, c ∈ alnum ++ ['-'] ↔ (!(!isAlnum c && c != '-')) = true := by
    intro c; cases h : isAlnum c <;> simp [mem_alnum, h]
  have hfind : ∀ s : Str, s.find? (fun c => !isAlnum c && c != '-') = none ↔
      ∀ c ∈ s, c ∈ alnum ++ ['-'] := by
    intro s
    rw [List.find?_eq_none]
    constructor
    · intro h c hc; rw [hcls]; have := h c hc; rw [Bool.not_eq_true] at this; rw [this]; rfl
    · intro h c hc; have := (hcls c).1 (h c hc); rw [Bool.not_eq_true'] at this; rw [this]; simp
  cases l with
  | nil => simp
  | cons x xs =>
    simp only [List.isEmpty_cons, Bool.false_eq_true, if_false]
    split
    · rename_i c hc
      simp only [reduceCtorEq, false_iff]
      rintro ⟨c', cs, heq, hc', hrest⟩
      simp at heq; obtain ⟨rfl, rfl⟩ := heq
      have hnone : (x :: xs).find? (fun c => !isAlnum c && c != '-') = none := by
        rw [hfind]
        intro c hcm
        simp only [List.mem_cons] at hcm
        rcases hcm with rfl | hcm
        · simp [hc']
        · rcases hrest with rfl | ⟨a, b, ha, ⟨d, hd, rfl⟩, rfl⟩
          · cases hcm
          · rw [star_cls] at ha
            simp at hcm
            rcases hcm with hcm | rfl
            · exact ha c hcm
            · simp [hd]
      rw [hnone] at hc; cases hc
    · rename_i hnone
      rw [hfind] at hnone
      constructor
      · intro h
        simp only [ite_eq_right_iff, reduceCtorEq, imp_false, not_or] at h
        refine ⟨x, xs, rfl, ?_, ?_⟩
        · have := hnone x (by simp)
          simp at this h
          rcases this with h' | h'
          · exact h'
          · exact absurd h' h.1
        · rcases List.eq_nil_or_concat xs with rfl | ⟨ys, y, rfl⟩
          · exact Or.inl rfl
          · right
            refine ⟨ys, [y], star_cls.2 (fun c hc => hnone c (by simp [hc])), ⟨y, ?_, rfl⟩, by simp⟩
            have h2 := h.2
            have := hnone y (by simp)
            simp [List.getLast?_cons] at h2 this
            rcases this with h' | h'
            · exact h'
            · exact absurd h' h2
      · rintro ⟨c, cs, heq, hc, hrest⟩
        simp at heq; obtain ⟨rfl, rfl⟩ := heq
        have hx : ('-' : Char) ∉ alnum := by decide
        simp only [ite_eq_right_iff, reduceCtorEq, imp_false, not_or, List.head?_cons, Option.some.injEq]
        refine ⟨?_, ?_⟩
        · rintro rfl; exact hx hc
        · rcases hrest with rfl | ⟨a, b, _, ⟨d, hd, rfl⟩, rfl⟩
          · simp; rintro rfl; exact hx hc
          · simp [List.getLast?_cons]; rintro rfl; exact hx hd

theorem hostname_parts {s : Str} :
    Spec.Hostname s ↔ ∀ l ∈ split '.' s, Spec.HostLabel l := by
  have hdot : ∀ l, Spec.HostLabel l → ('.' : Char) ∉ l := by
    intro l h hm
    rw [Spec.HostLabel, seq_cls] at h
    obtain ⟨c, cs, rfl, hc, hr⟩ := h
    have h1 : ('.' : Char) ∉ alnum := by decide
    have h2 : ('.' : Char) ∉ alnum ++ ['-'] := by decide
    simp only [List.mem_cons] at hm
    rcases hm with rfl | hm
    · exact h1 hc
    · rcases hr with rfl | ⟨a, b, ha, ⟨d, hd, rfl⟩, rfl⟩
      · cases hm
      · rw [star_cls] at ha
        rcases List.mem_append.1 hm with hm | hm
        · exact h2 (ha _ hm)
        · simp at hm; subst hm; exact h1 hd
  constructor
  · rintro ⟨a, b, ha, hb, rfl⟩
    induction hb generalizing a with
    | nil =>
      rw [List.append_nil, split_of_not_mem (hdot a ha)]
      intro l hl; simp at hl; rw [hl]; exact ha
    | cons h1 h2 ih =>
      obtain ⟨p, q, rfl, hq, rfl⟩ := h1
      intro l hl
      simp only [List.cons_append, List.nil_append] at hl
      rw [split_append_sep (hdot a ha)] at hl
      rcases List.mem_cons.1 hl with rfl | hl
      · exact ha
      · exact ih q hq l hl
  · intro h
    have hj := joinWith_split '.' s
    generalize hp : split '.' s = ps at h hj
    have hne : ps ≠ [] := hp ▸ split_ne_nil '.' s
    clear hp
    induction ps generalizing s with
    | nil => exact absurd rfl hne
    | cons p qs ih =>
      cases qs with
      | nil => rw [← hj]; exact ⟨p, [], h p (by simp), .nil, by simp [joinWith]⟩
      | cons q qs =>
        obtain ⟨a, b, ha, hb, hab⟩ :=
          ih (s := joinWith '.' (q :: qs)) (fun l hl => h l (List.mem_cons_of_mem _ hl)) rfl (by simp)
        refine ⟨p, '.' :: joinWith '.' (q :: qs), h p (by simp), ?_, by rw [← hj]; rfl⟩
        rw [hab]
        exact star.cons (a := '.' :: a) ⟨['.'], a, rfl, ha, rfl⟩ hb

theorem byteLen_of_ascii {s : Str} (h : ∀ c ∈ s, c.toNat < 128) : byteLen s = s.length := by
  induction s with
  | nil => rfl
  | cons x xs ih =>
    have hx := h x (by simp)
    have : x.utf8Size = 1 := by
      rw [Char.utf8Size_eq_one_iff, UInt32.le_iff_toNat_le]
      simp only [Char.toNat_val]
      show x.toNat ≤ 127
      omega
    have := ih (fun c hc => h c (by simp [hc]))
    simp only [byteLen] at this ⊢
    simp only [List.map_cons, List.sum_cons, List.length_cons]
    omega

theorem length_le_byteLen (s : Str) : s.length ≤ byteLen s := by
  induction s with
  | nil => simp [byteLen]
  | cons x xs ih =>
    have := Char.utf8Size_pos x
    simp only [byteLen] at ih ⊢
    simp only [List.map_cons, List.sum_cons, List.length_cons]
    omega

/-- Characters user names may contain, including the final `$`. -/
def userNameChar (c : Char) : Prop :=
  (isLower c || isUpper c || c == '_' || c == '-' || c == '$') = true ∨ isDigit c = true

theorem userNameChar_ascii {c : Char} (h : userNameChar c) : c.toNat < 128 := by
  simp only [userNameChar, Bool.or_eq_true, beq_iff_eq, isLower_iff, isUpper_iff, isDigit_iff] at h
  rcases h with ((((h | h) | h) | h) | h) | h <;> first | omega | (subst h; decide)

theorem userName_byteLen {s : Str} (h : ∀ c ∈ s, userNameChar c) : byteLen s = s.length :=
  byteLen_of_ascii fun c hc => userNameChar_ascii (h c hc)

theorem userNameLoop_chars {len n : Nat} {fn b : Bool} {s : Str}
    (h : userNameLoop len n fn s = .ok b) : ∀ c ∈ s, userNameChar c := by
  induction s generalizing n fn with
  | nil => simp
  | cons x xs ih =>
    unfold userNameLoop at h
    intro c hc
    split at h
    · rename_i hx
      split at h
      · cases h
      · rcases List.mem_cons.1 hc with rfl | hc
        · exact Or.inl hx
        · exact ih h c hc
    · split at h
      · rename_i hx
        rcases List.mem_cons.1 hc with rfl | hc
        · exact Or.inr hx
        · exact ih h c hc
      · cases h

theorem userName_byteLen_of_loop {len n : Nat} {fn b : Bool} {s : Str}
    (h : userNameLoop len n fn s = .ok b) : byteLen s = s.length :=
  userName_byteLen (userNameLoop_chars h)

/-- The loop succeeds iff every character is allowed and `$` only occurs at the end. -/
theorem userNameLoop_ok {len n : Nat} {fn b : Bool} {s : Str} (hlen : len = n + s.length) :
    userNameLoop len n fn s = .ok b ↔
      (∀ c ∈ s, userNameChar c) ∧ (∀ x y, s = x ++ '$' :: y → y = []) ∧ b = (fn && s.all isDigit) := by
  induction s generalizing n fn with
  | nil => simp [userNameLoop]; exact eq_comm
  | cons x xs ih =>
    unfold userNameLoop
    simp only [List.length_cons] at hlen
    have hd : ∀ {c : Char}, (isLower c || isUpper c || c == '_' || c == '-' || c == '$') = true →
        isDigit c = false := by
      intro c h
      rw [Bool.eq_false_iff]
      simp only [Bool.or_eq_true, beq_iff_eq, isLower_iff, isUpper_iff] at h
      simp only [ne_eq, isDigit_iff]
      rcases h with (((h | h) | h) | h) | h <;> first | omega | (subst h; decide)
    split
    · rename_i hx
      split
      · rename_i hbad
        simp only [reduceCtorEq, false_iff]
        rintro ⟨_, h2, _⟩
        have := h2 [] xs (by simp [hbad.1])
        subst this
        simp at hlen; omega
      · rename_i hok
        rw [ih (by omega)]
        have hxd := hd hx
        constructor
        · rintro ⟨h1, h2, h3⟩
          refine ⟨?_, ?_, by simp [h3, hxd]⟩
          · intro c hc
            rcases List.mem_cons.1 hc with rfl | hc
            · exact Or.inl hx
            · exact h1 c hc
          · intro a y hay
            cases a with
            | nil =>
              simp at hay
              obtain ⟨rfl, rfl⟩ := hay
              have : n = len - 1 := Classical.not_not.1 fun hn => hok ⟨rfl, hn⟩
              exact List.eq_nil_of_length_eq_zero (by omega)
            | cons a' as =>
              simp at hay
              exact h2 as y hay.2
        · rintro ⟨h1, h2, h3⟩
          refine ⟨fun c hc => h1 c (by simp [hc]), ?_, by simp [h3, hxd]⟩
          intro a y hay
          exact h2 (x :: a) y (by simp [hay])
    · rename_i hx
      split
      · rename_i hxd
        rw [ih (by omega)]
        constructor
        · rintro ⟨h1, h2, h3⟩
          refine ⟨?_, ?_, by simp [h3, hxd]⟩
          · intro c hc
            rcases List.mem_cons.1 hc with rfl | hc
            · exact Or.inr hxd
            · exact h1 c hc
          · intro a y hay
            cases a with
            | nil =>
              simp at hay
              obtain ⟨rfl, rfl⟩ := hay
              exact absurd hxd (by decide)
            | cons a' as =>
              simp at hay
              exact h2 as y hay.2
        · rintro ⟨h1, h2, h3⟩
          refine ⟨fun c hc => h1 c (by simp [hc]), ?_, by simp [h3, hxd]⟩
          intro a y hay
          exact h2 (x :: a) y (by simp [hay])
      · rename_i hxd
        simp only [reduceCtorEq, false_iff]
        rintro ⟨h1, _⟩
        rcases h1 x (by simp) with h | h
        · exact hx h
        · exact hxd h

/-- The documented grammar of user names in terms of characters. -/
theorem userName_spec {s : Str} :
    Spec.UserName s ↔
      s ≠ [] ∧ (∀ c ∈ s, userNameChar c) ∧ (∀ x y, s = x ++ '$' :: y → y = []) ∧
        s.head? ≠ some '-' ∧ s.length ≤ 32 ∧ ¬ s.all isDigit = true := by
  unfold Spec.UserName
  have hdig : star (cls digit) s ↔ s.all isDigit = true := by
    rw [star_cls, List.all_eq_true]; simp only [mem_digit]
  rw [hdig]
  have h1 : ∀ c, c ∈ alnum ++ ['_'] ↔ userNameChar c ∧ c ≠ '-' ∧ c ≠ '$' := by
    intro c
    simp only [List.mem_append, mem_alnum, isAlnum, isAlpha, userNameChar, Bool.or_eq_true, beq_iff_eq,
      isLower_iff, isUpper_iff, isDigit_iff, List.mem_singleton]
    constructor
    · rintro (((h | h) | h) | rfl)
      · exact ⟨by simp [h], by rintro rfl; revert h; decide, by rintro rfl; revert h; decide⟩
      · exact ⟨by simp [h], by rintro rfl; revert h; decide, by rintro rfl; revert h; decide⟩
      · exact ⟨by simp [h], by rintro rfl; revert h; decide, by rintro rfl; revert h; decide⟩
      · exact ⟨by simp, by decide, by decide⟩
    · rintro ⟨((((h | h) | h) | h) | h) | h, h2, h3⟩ <;> simp_all
  have h2 : ∀ c, c ∈ alnum ++ "_-".toList ↔ userNameChar c ∧ c ≠ '$' := by
    intro c
    have : c ∈ alnum ++ "_-".toList ↔ c ∈ alnum ++ ['_'] ∨ c = '-' := by simp [or_assoc]
    rw [this, h1]
    constructor
    · rintro (⟨h, _, h'⟩ | rfl)
      · exact ⟨h, h'⟩
      · exact ⟨Or.inl (by decide), by decide⟩
    · rintro ⟨h, h'⟩
      by_cases hc : c = '-'
      · exact Or.inr hc
      · exact Or.inl ⟨h, hc, h'⟩
  have hmain : ((cls (alnum ++ ['_']) ⬝ star (cls (alnum ++ "_-".toList)) ⬝ opt (lit ['$'])) ∣∣
      lit ['$']) s ↔ s ≠ [] ∧ (∀ c ∈ s, userNameChar c) ∧ (∀ x y, s = x ++ '$' :: y → y = []) ∧
        s.head? ≠ some '-' := by
    constructor
    · rintro (h | h)
      · rw [seq_cls] at h
        obtain ⟨c, cs, rfl, hc, a, b, ha, hb, rfl⟩ := h
        rw [h1] at hc
        rw [star_cls] at ha
        simp only [h2] at ha
        refine ⟨by simp, ?_, ?_, by simp [hc.2.1]⟩
        · intro d hd
          rcases List.mem_cons.1 hd with rfl | hd
          · exact hc.1
          · rcases List.mem_append.1 hd with hd | hd
            · exact (ha d hd).1
            · rcases hb with rfl | rfl
              · cases hd
              · simp at hd; subst hd; exact Or.inl (by decide)
        · intro x y hxy
          have hnot : ('$' : Char) ∉ c :: a := by
            simp only [List.mem_cons, not_or]
            exact ⟨fun h => hc.2.2 h.symm, fun h => (ha _ h).2 rfl⟩
          rcases hb with rfl | rfl
          · rw [List.append_nil] at hxy
            exact absurd (by rw [hxy]; simp) hnot
          · rw [← List.cons_append] at hxy
            rcases List.append_eq_append_iff.1 hxy with ⟨d, hd1, hd2⟩ | ⟨d, hd1, hd2⟩
            · cases d with
              | nil => simp at hd2; exact hd2.symm ▸ rfl
              | cons e es => simp at hd2
            · cases d with
              | nil => simp at hd2; exact hd2
              | cons e es =>
                simp at hd2
                exact absurd (by rw [hd1, ← hd2.1]; simp) hnot
      · cases h
        refine ⟨by simp, ?_, ?_, by decide⟩
        · intro c hc; simp at hc; subst hc; exact Or.inl (by decide)
        · intro x y hxy
          cases x with
          | nil => simp at hxy; exact hxy
          | cons e es => simp at hxy
    · rintro ⟨hne, hch, hd, hh⟩
      cases s with
      | nil => exact absurd rfl hne
      | cons c cs =>
        by_cases hc : c = '$'
        · subst hc
          have := hd [] cs rfl
          subst this
          exact Or.inr rfl
        · left
          rw [seq_cls]
          refine ⟨c, cs, rfl, (h1 c).2 ⟨hch c (by simp), by simpa using hh, hc⟩, ?_⟩
          rcases List.eq_nil_or_concat cs with rfl | ⟨ds, d, rfl⟩
          · exact ⟨[], [], .nil, Or.inl rfl, rfl⟩
          · have hds : ∀ e ∈ ds, e ∈ alnum ++ "_-".toList := by
              intro e he
              rw [h2]
              refine ⟨hch e (by simp [he]), ?_⟩
              rintro rfl
              obtain ⟨p, q, rfl⟩ := List.append_of_mem he
              have := hd (c :: p) (q ++ [d]) (by simp)
              simp at this
            by_cases hd' : d = '$'
            · subst hd'
              exact ⟨ds, ['$'], star_cls.2 hds, Or.inr rfl, by simp⟩
            · refine ⟨ds ++ [d], [], star_cls.2 ?_, Or.inl rfl, by simp⟩
              intro e he
              rcases List.mem_append.1 he with he | he
              · exact hds e he
              · simp at he; subst he
                exact (h2 e).2 ⟨hch e (by simp), hd'⟩
  rw [hmain]
  constructor
  · rintro ⟨⟨a, b, c, d⟩, e, f⟩; exact ⟨a, b, c, d, e, f⟩
  · rintro ⟨a, b, c, d, e, f⟩; exact ⟨⟨a, b, c, d⟩, e, f⟩

theorem isWhitespace_iff (c : Char) : isWhitespace c = true ↔ c.toNat ∈ Spec.whiteSpace := by
  simp only [isWhitespace, Spec.whiteSpace, Bool.or_eq_true, Bool.and_eq_true, decide_eq_true_eq, beq_iff_eq,
    List.mem_cons, List.not_mem_nil, or_false]
  omega

end Compose
