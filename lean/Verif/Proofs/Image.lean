import Verif.Spec.ImageParts
import Verif.Proofs.Keys
import Verif.Proofs.Number
import Mathlib.Tactic.ByContra

/- The image validators accept exactly the grammar of `Verif.Spec.Image`. -/

namespace Proofs
open Rust Compose Compose.Image Re Spec

/-- What may follow a lower case alphanumeric character inside `A+(S A+)*`. -/
inductive Tail (S : Lang) : Lang
  | nil : Tail S []
  | alnum {c w} : c ∈ lowerAlnum → Tail S w → Tail S (c :: w)
  | sep {s c w} : S s → c ∈ lowerAlnum → Tail S w → Tail S (s ++ c :: w)

/-- An alphanumeric character and a tail. -/
def Word (S : Lang) (w : Str) : Prop := ∃ c t, w = c :: t ∧ c ∈ lowerAlnum ∧ Tail S t

theorem Tail.of_word {S : Lang} {w : Str} (h : Word S w) : Tail S w := by
  obtain ⟨c, t, rfl, hc, ht⟩ := h
  exact .alnum hc ht

theorem Tail.of_lowers {S : Lang} {a b : Str} (ha : ∀ c ∈ a, c ∈ lowerAlnum) (hb : Tail S b) : Tail S (a ++ b) := by
  induction a with
  | nil => exact hb
  | cons c cs ih => exact .alnum (ha c (by simp)) (ih fun x hx => ha x (by simp [hx]))

theorem star_of_tail {S : Lang} {w : Str} (h : Tail S w) :
    ∃ a b, w = a ++ b ∧ (∀ c ∈ a, c ∈ lowerAlnum) ∧ star (S ⬝ lowers) b := by
  induction h with
  | nil => exact ⟨[], [], rfl, by simp, .nil⟩
  | @alnum c w hc _ ih =>
    obtain ⟨a, b, rfl, ha, hb⟩ := ih
    exact ⟨c :: a, b, rfl, by simpa using ⟨hc, ha⟩, hb⟩
  | @sep s c w hs hc _ ih =>
    obtain ⟨a, b, rfl, ha, hb⟩ := ih
    refine ⟨[], s ++ c :: (a ++ b), rfl, by simp, ?_⟩
    have : s ++ c :: (a ++ b) = (s ++ c :: a) ++ b := by simp
    rw [this]
    exact .cons ⟨s, c :: a, hs, plus_cls.2 ⟨by simp, by simpa using ⟨hc, ha⟩⟩, rfl⟩ hb

theorem tail_of_star {S : Lang} {w : Str} (h : star (S ⬝ lowers) w) : Tail S w := by
  induction h with
  | nil => exact .nil
  | @cons a b h1 _ ih =>
    obtain ⟨s, l, hs, hl, rfl⟩ := h1
    obtain ⟨hne, hl⟩ := plus_cls.1 hl
    cases l with
    | nil => exact absurd rfl hne
    | cons c l =>
      rw [List.append_assoc]
      exact .sep hs (hl c (by simp)) (Tail.of_lowers (fun x hx => hl x (by simp [hx])) ih)

theorem word_iff {S : Lang} {w : Str} : (lowers ⬝ star (S ⬝ lowers)) w ↔ Word S w := by
  constructor
  · rintro ⟨a, b, ha, hb, rfl⟩
    obtain ⟨hne, ha⟩ := plus_cls.1 ha
    cases a with
    | nil => exact absurd rfl hne
    | cons c a =>
      exact ⟨c, a ++ b, rfl, ha c (by simp), Tail.of_lowers (fun x hx => ha x (by simp [hx])) (tail_of_star hb)⟩
  · rintro ⟨c, t, rfl, hc, ht⟩
    obtain ⟨a, b, rfl, ha, hb⟩ := star_of_tail ht
    exact ⟨c :: a, b, plus_cls.2 ⟨by simp, by simpa using ⟨hc, ha⟩⟩, hb, rfl⟩

theorem Word.last {S : Lang} {w : Str} (h : Word S w) : ∃ a c, w = a ++ [c] ∧ c ∈ lowerAlnum := by
  obtain ⟨c, t, rfl, hc, ht⟩ := h
  induction ht generalizing c with
  | nil => exact ⟨[], c, rfl, hc⟩
  | @alnum d w hd _ ih =>
    obtain ⟨a, x, h, hx⟩ := ih d hd
    exact ⟨c :: a, x, by simp [h], hx⟩
  | @sep s d w hs hd _ ih =>
    obtain ⟨a, x, h, hx⟩ := ih d hd
    exact ⟨c :: (s ++ a), x, by simp [h], hx⟩

/-- Last character test of the code. -/
def lastOk (w : Str) : Prop := w.getLast?.any charIsAlnum = true

theorem charIsAlnum_iff {c : Char} : charIsAlnum c = true ↔ c ∈ lowerAlnum := by
  rw [mem_lowerAlnum]; rfl

theorem lastOk_cons {c : Char} {w : Str} (hw : w ≠ []) : lastOk (c :: w) ↔ lastOk w := by
  cases w with
  | nil => exact absurd rfl hw
  | cons d w => simp [lastOk, List.getLast?_cons]

theorem lastOk_nil : ¬ lastOk [] := by simp [lastOk]

theorem lastOk_singleton {c : Char} : lastOk [c] ↔ c ∈ lowerAlnum := by simp [lastOk, charIsAlnum_iff]

/-! Inversion of `Tail nameSeparator`. -/

/-- Any number of dashes before a word. -/
inductive Dashes : Str → Prop
  | word {w} : Word nameSeparator w → Dashes w
  | dash {w} : Dashes w → Dashes ('-' :: w)

theorem dashes_iff {w : Str} :
    Dashes w ↔ ∃ s v, (∀ c ∈ s, c = '-') ∧ Word nameSeparator v ∧ w = s ++ v := by
  constructor
  · intro h
    induction h with
    | @word w h => exact ⟨[], w, by simp, h, rfl⟩
    | dash _ ih =>
      obtain ⟨s, v, hs, hv, rfl⟩ := ih
      exact ⟨'-' :: s, v, by simpa using hs, hv, rfl⟩
  · rintro ⟨s, v, hs, hv, rfl⟩
    induction s with
    | nil => exact .word hv
    | cons c s ih =>
      rw [hs c (by simp)]
      exact .dash (ih fun x hx => hs x (by simp [hx]))

theorem nameSeparator_iff {s : Str} :
    nameSeparator s ↔ s = ['.'] ∨ s = ['_'] ∨ s = ['_', '_'] ∨ (s ≠ [] ∧ ∀ c ∈ s, c = '-') := by
  simp [nameSeparator, alt, lit, plus_cls]

theorem not_alnum_dot : '.' ∉ lowerAlnum := by decide
theorem not_alnum_us : '_' ∉ lowerAlnum := by decide
theorem not_alnum_dash : '-' ∉ lowerAlnum := by decide

theorem tail_cons_iff {x : Char} {w : Str} : Tail nameSeparator (x :: w) ↔
    (x ∈ lowerAlnum ∧ Tail nameSeparator w) ∨ (x = '.' ∧ Word nameSeparator w) ∨
    (x = '_' ∧ (Word nameSeparator w ∨ ∃ v, w = '_' :: v ∧ Word nameSeparator v)) ∨
    (x = '-' ∧ Dashes w) := by
  constructor
  · intro h
    generalize hs : x :: w = xs at h
    cases h with
    | nil => simp at hs
    | alnum hc ht =>
      simp only [List.cons.injEq] at hs
      obtain ⟨rfl, rfl⟩ := hs
      exact .inl ⟨hc, ht⟩
    | @sep s c t hS hc ht =>
      have hw : Word nameSeparator (c :: t) := ⟨c, t, rfl, hc, ht⟩
      rcases nameSeparator_iff.1 hS with rfl | rfl | rfl | ⟨hne, hd⟩
      · simp only [List.cons_append, List.nil_append, List.cons.injEq] at hs
        obtain ⟨rfl, rfl⟩ := hs
        exact .inr (.inl ⟨rfl, hw⟩)
      · simp only [List.cons_append, List.nil_append, List.cons.injEq] at hs
        obtain ⟨rfl, rfl⟩ := hs
        exact .inr (.inr (.inl ⟨rfl, .inl hw⟩))
      · simp only [List.cons_append, List.nil_append, List.cons.injEq] at hs
        obtain ⟨rfl, rfl⟩ := hs
        exact .inr (.inr (.inl ⟨rfl, .inr ⟨_, rfl, hw⟩⟩))
      · cases s with
        | nil => exact absurd rfl hne
        | cons d s =>
          simp only [List.cons_append, List.cons.injEq] at hs
          obtain ⟨rfl, rfl⟩ := hs
          exact .inr (.inr (.inr ⟨hd x (by simp), dashes_iff.2 ⟨s, _, fun c hc => hd c (by simp [hc]), hw, rfl⟩⟩))
  · rintro (⟨hc, ht⟩ | ⟨rfl, hw⟩ | ⟨rfl, hw | ⟨v, rfl, hw⟩⟩ | ⟨rfl, hd⟩)
    · exact .alnum hc ht
    · obtain ⟨c, t, rfl, hc, ht⟩ := hw
      exact .sep (s := ['.']) (nameSeparator_iff.2 (.inl rfl)) hc ht
    · obtain ⟨c, t, rfl, hc, ht⟩ := hw
      exact .sep (s := ['_']) (nameSeparator_iff.2 (.inr (.inl rfl))) hc ht
    · obtain ⟨c, t, rfl, hc, ht⟩ := hw
      exact .sep (s := ['_', '_']) (nameSeparator_iff.2 (.inr (.inr (.inl rfl)))) hc ht
    · obtain ⟨s, v, hs, ⟨c, t, rfl, hc, ht⟩, rfl⟩ := dashes_iff.1 hd
      exact .sep (s := '-' :: s) (nameSeparator_iff.2 (.inr (.inr (.inr ⟨by simp, by simpa using hs⟩)))) hc ht

theorem word_cons_iff {S : Lang} {x : Char} {w : Str} : Word S (x :: w) ↔ x ∈ lowerAlnum ∧ Tail S w := by
  constructor
  · rintro ⟨c, t, h, hc, ht⟩
    simp only [List.cons.injEq] at h
    obtain ⟨rfl, rfl⟩ := h
    exact ⟨hc, ht⟩
  · rintro ⟨hc, ht⟩
    exact ⟨x, w, rfl, hc, ht⟩

theorem word_nil {S : Lang} : ¬ Word S [] := by rintro ⟨c, t, h, _⟩; simp at h

theorem dashes_cons_iff {x : Char} {w : Str} :
    Dashes (x :: w) ↔ (x ∈ lowerAlnum ∧ Tail nameSeparator w) ∨ (x = '-' ∧ Dashes w) := by
  constructor
  · intro h
    generalize hs : x :: w = xs at h
    cases h with
    | word h => subst hs; exact .inl (word_cons_iff.1 h)
    | dash h =>
      simp only [List.cons.injEq] at hs
      obtain ⟨rfl, rfl⟩ := hs
      exact .inr ⟨rfl, h⟩
  · rintro (h | ⟨rfl, h⟩)
    · exact .word (word_cons_iff.2 h)
    · exact .dash h

theorem dashes_nil : ¬ Dashes [] := by
  intro h
  generalize hs : ([] : Str) = xs at h
  cases h with
  | word h => subst hs; exact word_nil h
  | dash h => simp at hs

/-- The loop, from each of its five states. -/
theorem validatePartLoop_iff (w : Str) :
    (validatePartLoop 0 0 false w = .ok () ∧ (w ≠ [] → lastOk w) ↔ Tail nameSeparator w) ∧
    (validatePartLoop 1 0 false w = .ok () ∧ lastOk w ↔ Word nameSeparator w) ∧
    (validatePartLoop 0 1 false w = .ok () ∧ lastOk w ↔
      Word nameSeparator w ∨ ∃ v, w = '_' :: v ∧ Word nameSeparator v) ∧
    (validatePartLoop 0 2 false w = .ok () ∧ lastOk w ↔ Word nameSeparator w) ∧
    (validatePartLoop 0 0 true w = .ok () ∧ lastOk w ↔ Dashes w) := by
  induction w with
  | nil =>
    have := @word_nil nameSeparator
    simp [validatePartLoop, lastOk_nil, this, dashes_nil, Tail.nil]
  | cons x w ih =>
    obtain ⟨h0, h1, h2, h3, h4⟩ := ih
    have key : x ∈ lowerAlnum → (lastOk (x :: w) ↔ (w ≠ [] → lastOk w)) := by
      intro hx
      by_cases hw : w = []
      · subst hw; simp [lastOk_singleton, hx]
      · rw [lastOk_cons hw]; simp [hw]
    have key' : x ∉ lowerAlnum → (lastOk (x :: w) ↔ lastOk w) := by
      intro hx
      by_cases hw : w = []
      · subst hw; simp [lastOk_singleton, hx, lastOk_nil]
      · rw [lastOk_cons hw]
    simp only [validatePartLoop, ← mem_lowerAlnum, tail_cons_iff, word_cons_iff, dashes_cons_iff]
    by_cases hx : x ∈ lowerAlnum
    · have n1 : x ≠ '.' := by rintro rfl; exact not_alnum_dot hx
      have n2 : x ≠ '_' := by rintro rfl; exact not_alnum_us hx
      have n3 : x ≠ '-' := by rintro rfl; exact not_alnum_dash hx
      simp [hx, key hx, h0, n1, n2, n3]
    · have e := key' hx
      by_cases m1 : x = '-'
      · subst m1; simp [not_alnum_dash, e, h4]
      · by_cases m2 : x = '.'
        · subst m2; simp [not_alnum_dot, e, h1]
        · by_cases m3 : x = '_'
          · subst m3; simp [not_alnum_us, e, h2, h3]
          · simp [hx, m1, m2, m3]

theorem validatePart_iff {w : Str} : validatePart w = .ok () ↔ NamePart w := by
  unfold NamePart
  rw [word_iff]
  unfold validatePart
  have h := (validatePartLoop_iff w).1
  cases w with
  | nil => simp [validatePartLoop, word_nil]
  | cons x w =>
    simp only [ne_eq, reduceCtorEq, not_false_eq_true, forall_const, tail_cons_iff, word_cons_iff] at h ⊢
    cases hl : validatePartLoop 0 0 false (x :: w) with
    | error e =>
      simp only [hl, reduceCtorEq, false_and, false_iff] at h ⊢
      exact fun hc => h (.inl hc)
    | ok u =>
      simp only [hl, true_and] at h
      by_cases hx : x ∈ lowerAlnum
      · have n1 : x ≠ '.' := by rintro rfl; exact not_alnum_dot hx
        have n2 : x ≠ '_' := by rintro rfl; exact not_alnum_us hx
        have n3 : x ≠ '-' := by rintro rfl; exact not_alnum_dash hx
        simp only [hx, n1, n2, n3, false_and, or_false, true_and] at h ⊢
        rw [← h]
        have : charIsAlnum x = true := charIsAlnum_iff.2 hx
        simp [this, lastOk]
      · have : charIsAlnum x = false := by
          rw [← Bool.not_eq_true, charIsAlnum_iff]; exact hx
        simp [hx, this]

theorem validateParts_iff {ps : List Str} : validateParts ps = .ok () ↔ ∀ p ∈ ps, NamePart p := by
  induction ps with
  | nil => simp [validateParts]
  | cons p ps ih =>
    simp only [validateParts]
    cases hp : validatePart p with
    | error e =>
      have : ¬ NamePart p := by rw [← validatePart_iff, hp]; simp
      simp [this]
    | ok u => simp [validatePart_iff.1 hp, ih]

/-! Characters -/

theorem _root_.Spec.NamePart.chars {w : Str} (h : NamePart w) : ∀ c ∈ w, c ∈ lowerAlnum ∨ c = '.' ∨ c = '_' ∨ c = '-' := by
  obtain ⟨c, t, rfl, hc, ht⟩ := word_iff.1 h
  have : ∀ x ∈ t, x ∈ lowerAlnum ∨ x = '.' ∨ x = '_' ∨ x = '-' := by
    clear h hc
    induction ht with
    | nil => simp
    | alnum hc _ ih => simpa using ⟨.inl hc, ih⟩
    | @sep s c w hs hc _ ih =>
      intro x hx
      simp only [List.mem_append, List.mem_cons] at hx
      rcases hx with hx | rfl | hx
      · rcases nameSeparator_iff.1 hs with rfl | rfl | rfl | ⟨_, h⟩
        · simp at hx; simp [hx]
        · simp at hx; simp [hx]
        · simp at hx; simp [hx]
        · simp [h x hx]
      · exact .inl hc
      · exact ih x hx
  simpa using ⟨.inl hc, this⟩

theorem _root_.Spec.NamePart.not_mem {w : Str} (h : NamePart w) {c : Char}
    (hc : c ∉ lowerAlnum ++ ['.', '_', '-'] := by decide) : c ∉ w := by
  intro hw
  have := NamePart.chars h c hw
  simp only [List.mem_append, List.mem_cons, List.not_mem_nil, or_false] at hc
  exact hc this

theorem _root_.Spec.NamePart.ne_nil {w : Str} (h : NamePart w) : w ≠ [] := by
  obtain ⟨c, t, rfl, _⟩ := word_iff.1 h; simp

/-! Names -/

theorem parts_iff {c : Char} {A B : Lang} (hA : ∀ s, A s → c ∉ s) (hB : ∀ s, B s → c ∉ s) {s : Str} :
    (A ⬝ star (lit [c] ⬝ B)) s ↔ ∃ f r, split c s = f :: r ∧ A f ∧ ∀ p ∈ r, B p := by
  constructor
  · rintro ⟨f, b, hf, hb, rfl⟩
    have : ∀ f, c ∉ f → ∃ r, split c (f ++ b) = f :: r ∧ ∀ p ∈ r, B p := by
      clear hf
      induction hb with
      | nil => intro f hf; exact ⟨[], by simp [split_of_not_mem hf], by simp⟩
      | @cons a b h1 _ ih =>
        obtain ⟨x, y, rfl, hy, rfl⟩ := h1
        intro f hf
        obtain ⟨r, hr, hrB⟩ := ih y (hB y hy)
        refine ⟨y :: r, ?_, by simpa using ⟨hy, hrB⟩⟩
        have e : f ++ ([c] ++ y ++ b) = f ++ c :: (y ++ b) := by simp
        rw [e, split_append_sep hf, hr]
    obtain ⟨r, h1, h2⟩ := this f (hA f hf)
    exact ⟨f, r, h1, hf, h2⟩
  · rintro ⟨f, r, h1, h2, h3⟩
    have : s = joinWith c (f :: r) := by rw [← h1, joinWith_split]
    subst this
    clear h1
    have : ∀ r : List Str, (∀ p ∈ r, B p) → ∃ b, star (lit [c] ⬝ B) b ∧ ∀ f, joinWith c (f :: r) = f ++ b := by
      intro r
      induction r with
      | nil => intro _; exact ⟨[], .nil, by simp [joinWith]⟩
      | cons p r ih =>
        intro h
        obtain ⟨b, hb, hj⟩ := ih fun x hx => h x (by simp [hx])
        refine ⟨([c] ++ p) ++ b, .cons ⟨[c], p, rfl, h p (by simp), rfl⟩ hb, ?_⟩
        intro f
        rw [joinWith, hj p]
        · simp
    obtain ⟨b, hb, hj⟩ := this r h3
    exact ⟨f, b, h2, hb, hj f⟩

theorem _root_.Spec.Registry.not_slash {s : Str} (h : Registry s) : '/' ∉ s := by
  obtain ⟨_, h | ⟨host, port, n, rfl, hh, hp⟩⟩ := h
  · exact h.not_mem
  · simp only [List.mem_append, List.mem_cons, not_or]
    refine ⟨hh.not_mem, by decide, fun hm => ?_⟩
    rcases hp.chars _ hm with h | h
    · simp [isDigit] at h
    · simp at h

theorem _root_.Spec.FirstPart.not_slash {s : Str} (h : FirstPart s) : '/' ∉ s := by
  rcases h with h | ⟨_, h⟩
  · exact h.not_slash
  · exact h.not_mem

theorem imageName_iff {s : Str} :
    ImageName s ↔ ∃ f r, split '/' s = f :: r ∧ FirstPart f ∧ ∀ p ∈ r, NamePart p :=
  parts_iff (fun _ => FirstPart.not_slash) (fun _ h => NamePart.not_mem h)

/-- The end of the registry as the code computes it. -/
def firstEnd (first : Str) : Option Nat := if '.' ∈ first then some (byteLen first) else none

theorem firstPart_iff {f : Str} :
    (∃ e p, firstPart f = .ok (e, p) ∧ validatePart p = .ok ()) ↔ FirstPart f := by
  unfold firstPart FirstPart Registry
  by_cases hd : '.' ∈ f
  · simp only [List.contains_eq_mem, hd, decide_true, if_true, true_and, not_true_eq_false, false_and, or_false]
    cases hs : splitOnce ':' f with
    | none =>
      have hn := splitOnce_eq_none.1 hs
      constructor
      · rintro ⟨e, p, h, hp⟩
        simp only [Except.ok.injEq, Prod.mk.injEq] at h
        obtain ⟨rfl, rfl⟩ := h
        exact .inl (validatePart_iff.1 hp)
      · rintro (h | ⟨host, port, n, rfl, _⟩)
        · exact ⟨_, _, rfl, validatePart_iff.2 h⟩
        · simp at hn
    | some q =>
      obtain ⟨host, port⟩ := q
      obtain ⟨rfl, hh⟩ := splitOnce_eq_some.1 hs
      simp only
      constructor
      · rintro ⟨e, p, h, hp⟩
        cases hu : parseUnsigned u16Max port with
        | error e => rw [hu] at h; simp at h
        | ok n =>
          rw [hu] at h
          simp only [Except.ok.injEq, Prod.mk.injEq] at h
          obtain ⟨rfl, rfl⟩ := h
          exact .inr ⟨_, _, n, rfl, validatePart_iff.1 hp, parseUnsigned_iff.1 hu⟩
      · rintro (h | ⟨host', port', n, he, hh', hp'⟩)
        · exact absurd (by simp) (h.not_mem (c := ':'))
        · have : splitOnce ':' (host ++ ':' :: port) = some (host', port') :=
            splitOnce_eq_some.2 ⟨he, hh'.not_mem⟩
          rw [hs] at this
          simp only [Option.some.injEq, Prod.mk.injEq] at this
          obtain ⟨rfl, rfl⟩ := this
          rw [parseUnsigned_iff.2 hp']
          exact ⟨_, _, rfl, validatePart_iff.2 hh'⟩
  · simp only [List.contains_eq_mem, hd, decide_false, Bool.false_eq_true, if_false, false_and, not_false_eq_true,
      true_and, false_or]
    constructor
    · rintro ⟨e, p, h, hp⟩
      simp only [Except.ok.injEq, Prod.mk.injEq] at h
      obtain ⟨rfl, rfl⟩ := h
      exact validatePart_iff.1 hp
    · intro h
      exact ⟨_, _, rfl, validatePart_iff.2 h⟩

theorem firstPart_end {f p : Str} {e : Option Nat} (h : firstPart f = .ok (e, p)) : e = firstEnd f := by
  unfold firstPart at h
  unfold firstEnd
  simp only [List.contains_eq_mem, decide_eq_true_eq] at h
  split at h
  · next hd =>
    rw [if_pos hd]
    split at h
    · split at h
      · simp at h
      · simp at h; exact h.1.symm
    · simp at h; exact h.1.symm
  · next hd => rw [if_neg hd]; simp at h; exact h.1.symm

/-- The registry of a name: its first part when that has a dot. -/
def registryOf (name : Str) : Option Str :=
  match split '/' name with
  | [] => none
  | f :: _ => if '.' ∈ f then some f else none

theorem registryOf_eq_some {name r : Str} : registryOf name = some r ↔ RegistryOf name r := by
  unfold registryOf RegistryOf
  constructor
  · intro h
    cases hs : split '/' name with
    | nil => rw [hs] at h; simp at h
    | cons f ps =>
      rw [hs] at h
      simp only at h
      split at h
      · next hd =>
        simp only [Option.some.injEq] at h
        subst h
        refine ⟨not_mem_of_mem_split (c := '/') (s := name) (by rw [hs]; simp), hd, ?_⟩
        have e : name = joinWith '/' (f :: ps) := by rw [← hs, joinWith_split]
        cases ps with
        | nil => left; simpa [joinWith] using e
        | cons p ps => right; exact ⟨joinWith '/' (p :: ps), by rw [e, joinWith]⟩
      · simp at h
  · rintro ⟨h1, h2, rfl | ⟨rest, rfl⟩⟩
    · simp [split_of_not_mem h1, h2]
    · simp [split_append_sep h1, h2]

theorem firstEnd_eq {name f : Str} {ps : List Str} (h : split '/' name = f :: ps) :
    firstEnd f = (registryOf name).map byteLen := by
  unfold firstEnd registryOf
  rw [h]
  simp only
  split <;> rfl

theorem nameNew_iff {s : Str} {n : Image.Name} :
    Image.Name.new s = .ok n ↔ ImageName s ∧ n = ⟨s, (registryOf s).map byteLen⟩ := by
  rw [imageName_iff]
  unfold Image.Name.new
  cases hs : split '/' s with
  | nil => exact absurd hs (split_ne_nil _ _)
  | cons f ps =>
    simp only [List.cons.injEq]
    have hend := firstEnd_eq hs
    have hfp := @firstPart_iff f
    cases hf : firstPart f with
    | error e =>
      have : ¬ FirstPart f := by rw [← hfp, hf]; simp
      simp only [reduceCtorEq, false_iff]
      rintro ⟨⟨f', r, ⟨rfl, rfl⟩, h, _⟩, _⟩
      exact this h
    | ok q =>
      obtain ⟨e, p⟩ := q
      have he := firstPart_end hf
      simp only
      cases hv : validatePart p with
      | error e =>
        have : ¬ FirstPart f := by rw [← hfp, hf]; simp [hv]
        simp only [reduceCtorEq, false_iff]
        rintro ⟨⟨f', r, ⟨rfl, rfl⟩, h, _⟩, _⟩
        exact this h
      | ok u =>
        have hF : FirstPart f := by rw [← hfp]; exact ⟨e, p, hf, hv⟩
        simp only
        cases hps : validateParts ps with
        | error e =>
          have : ¬ ∀ p ∈ ps, NamePart p := by rw [← validateParts_iff, hps]; simp
          simp only [reduceCtorEq, false_iff]
          rintro ⟨⟨f', r, ⟨rfl, rfl⟩, _, h⟩, _⟩
          exact this h
        | ok u =>
          have hP := validateParts_iff.1 hps
          simp only [Except.ok.injEq]
          rw [he, hend]
          constructor
          · rintro rfl; exact ⟨⟨f, ps, ⟨rfl, rfl⟩, hF, hP⟩, rfl⟩
          · rintro ⟨_, rfl⟩; rfl

/-! Tags and digests -/

theorem tagChar_iff {c : Char} : tagChar c = true ↔ c ∈ alnum ++ "._-".toList := by
  simp [tagChar, mem_alnum, isAlnum, isAlpha, or_assoc]

theorem tagNew_iff {s t : Str} : tagNew s = .ok t ↔ ImageTag s ∧ t = s := by
  unfold tagNew ImageTag
  rw [plus_cls]
  cases hf : s.find? (fun c => !tagChar c) with
  | some c =>
    have h := List.find?_some hf
    have hm := List.mem_of_find?_eq_some hf
    simp only [reduceCtorEq, false_iff]
    rintro ⟨⟨⟨_, h2⟩, _⟩, _⟩
    have := tagChar_iff.2 (h2 c hm)
    simp [this] at h
  | none =>
    have h : ∀ c ∈ s, c ∈ alnum ++ "._-".toList := fun c hc => tagChar_iff.1 (by
      have := List.find?_eq_none.1 hf c hc; simpa using this)
    have hb : byteLen s = s.length := byteLen_of_ascii fun c hc => by
      have : ∀ c ∈ alnum ++ "._-".toList, c.toNat < 128 := by decide
      exact this c (h c hc)
    simp only [hb]
    by_cases he : s = []
    · simp [he]
    · by_cases hl : 128 < s.length
      · have : ¬ s.length ≤ 128 := by omega
        simp [he, hl, this]
      · have : s.length ≤ 128 := by omega
        simp only [List.isEmpty_iff, he, if_false, hl, gt_iff_lt, Except.ok.injEq, ne_eq, not_false_eq_true, true_and,
          this, and_true]
        exact ⟨fun e => ⟨h, e.symm⟩, fun e => e.2.symm⟩

/-- `[+._-]` -/
abbrev algSep : Lang := cls "+._-".toList

theorem algSep_not_alnum {c : Char} (h : c ∈ "+._-".toList) : c ∉ lowerAlnum := by
  revert c; decide

theorem algTail_cons_iff {x : Char} {w : Str} : Tail algSep (x :: w) ↔
    (x ∈ lowerAlnum ∧ Tail algSep w) ∨ (x ∈ "+._-".toList ∧ Word algSep w) := by
  constructor
  · intro h
    generalize hs : x :: w = xs at h
    cases h with
    | nil => simp at hs
    | alnum hc ht =>
      simp only [List.cons.injEq] at hs
      obtain ⟨rfl, rfl⟩ := hs
      exact .inl ⟨hc, ht⟩
    | @sep s c t hS hc ht =>
      obtain ⟨y, hy, rfl⟩ := hS
      simp only [List.cons_append, List.nil_append, List.cons.injEq] at hs
      obtain ⟨rfl, rfl⟩ := hs
      exact .inr ⟨hy, c, t, rfl, hc, ht⟩
  · rintro (⟨hc, ht⟩ | ⟨hx, c, t, rfl, hc, ht⟩)
    · exact .alnum hc ht
    · exact .sep (s := [x]) ⟨x, hx, rfl⟩ hc ht

theorem algorithmLoop_iff (w : Str) :
    (algorithmLoop 0 w = .ok () ∧ (w ≠ [] → lastOk w) ↔ Tail algSep w) ∧
    (algorithmLoop 1 w = .ok () ∧ lastOk w ↔ Word algSep w) := by
  induction w with
  | nil => have := @word_nil algSep; simp [algorithmLoop, lastOk_nil, this, Tail.nil]
  | cons x w ih =>
    obtain ⟨h0, h1⟩ := ih
    have key : x ∈ lowerAlnum → (lastOk (x :: w) ↔ (w ≠ [] → lastOk w)) := by
      intro hx
      by_cases hw : w = []
      · subst hw; simp [lastOk_singleton, hx]
      · rw [lastOk_cons hw]; simp [hw]
    have key' : x ∉ lowerAlnum → (lastOk (x :: w) ↔ lastOk w) := by
      intro hx
      by_cases hw : w = []
      · subst hw; simp [lastOk_singleton, hx, lastOk_nil]
      · rw [lastOk_cons hw]
    have hm : x ∈ "+._-".toList ↔ (x = '+' ∨ x = '.' ∨ x = '_' ∨ x = '-') := by simp
    simp only [algorithmLoop, ← mem_lowerAlnum, algTail_cons_iff, word_cons_iff]
    simp only [← hm]
    by_cases hx : x ∈ lowerAlnum
    · have n : x ∉ "+._-".toList := fun h => algSep_not_alnum h hx
      simp only [hx, n, if_true, key hx, true_and, false_and, or_false, h0, and_self, ne_eq, reduceCtorEq, not_false_eq_true, forall_const]
    · by_cases n : x ∈ "+._-".toList
      · simp only [hx, n, key' hx, if_true, if_false, h1, true_and, false_and, false_or, ne_eq, reduceCtorEq, not_false_eq_true,
          forall_const, Nat.zero_add, Nat.le_refl, Bool.false_eq_true]
        simp
      · simp only [hx, n, if_false, false_and, or_false]
        simp

theorem algorithm_iff {w : Str} :
    (algorithmLoop 0 w = .ok () ∧ w ≠ [] ∧ w.head?.any charIsAlnum = true ∧ w.getLast?.any charIsAlnum = true) ↔
    Word algSep w := by
  cases w with
  | nil => have := @word_nil algSep; simp [this]
  | cons x w =>
    have h := (algorithmLoop_iff (x :: w)).1
    rw [algTail_cons_iff] at h
    rw [word_cons_iff]
    simp only [ne_eq, reduceCtorEq, not_false_eq_true, forall_const, true_and, List.head?_cons, Option.any_some,
      charIsAlnum_iff] at h ⊢
    constructor
    · rintro ⟨a, b, c⟩
      rcases h.1 ⟨a, c⟩ with h | ⟨h, _⟩
      · exact h
      · exact absurd b (algSep_not_alnum h)
    · rintro ⟨a, b⟩
      have := h.2 (.inl ⟨a, b⟩)
      exact ⟨this.1, a, this.2⟩

theorem algorithm_not_colon {w : Str} (h : Word algSep w) : ':' ∉ w := by
  obtain ⟨c, t, rfl, hc, ht⟩ := h
  have h1 : ∀ x ∈ lowerAlnum ++ "+._-".toList, x ≠ ':' := by decide
  have : ':' ∉ t := by
    clear hc
    induction ht with
    | nil => simp
    | @alnum c w hc _ ih =>
      have := h1 c (by simp [hc])
      simp [ih, this.symm]
    | @sep s c w hs hc _ ih =>
      obtain ⟨y, hy, rfl⟩ := hs
      have a := h1 c (by simp [hc])
      have b := h1 y (by simp only [List.mem_append, hy, or_true])
      simp [ih, a.symm, b.symm]
  have := h1 c (by simp [hc])
  simp [*, this.symm]

theorem encodedChar_iff {c : Char} : encodedChar c = true ↔ c ∈ alnum ++ "=_-".toList := by
  simp [encodedChar, mem_alnum, isAlnum, isAlpha, or_assoc]

theorem imageDigest_iff {s : Str} : ImageDigest s ↔
    ∃ a e, s = a ++ ':' :: e ∧ Word algSep a ∧ e ≠ [] ∧ ∀ c ∈ e, c ∈ alnum ++ "=_-".toList := by
  unfold ImageDigest
  constructor
  · rintro ⟨a, b, ha, ⟨c, e, rfl, he, rfl⟩, rfl⟩
    exact ⟨a, e, rfl, word_iff.1 ha, plus_cls.1 he⟩
  · rintro ⟨a, e, rfl, ha, he⟩
    exact ⟨a, ':' :: e, word_iff.2 ha, ⟨[':'], e, rfl, plus_cls.2 he, rfl⟩, rfl⟩

theorem digestNew_iff {s d : Str} : digestNew s = .ok d ↔ ImageDigest s ∧ d = s := by
  rw [imageDigest_iff]
  unfold digestNew
  cases hs : splitOnce ':' s with
  | none =>
    have hn := splitOnce_eq_none.1 hs
    simp only [reduceCtorEq, false_iff]
    rintro ⟨⟨a, e, rfl, _⟩, _⟩
    simp at hn
  | some q =>
    obtain ⟨a, e⟩ := q
    obtain ⟨rfl, ha⟩ := splitOnce_eq_some.1 hs
    have hall : (∃ a' e', a ++ ':' :: e = a' ++ ':' :: e' ∧ Word algSep a' ∧ e' ≠ [] ∧
        ∀ c ∈ e', c ∈ alnum ++ "=_-".toList) ↔ Word algSep a ∧ e ≠ [] ∧ ∀ c ∈ e, c ∈ alnum ++ "=_-".toList := by
      constructor
      · rintro ⟨a', e', he, hw, h⟩
        have : splitOnce ':' (a ++ ':' :: e) = some (a', e') := splitOnce_eq_some.2 ⟨he, algorithm_not_colon hw⟩
        rw [hs] at this
        simp only [Option.some.injEq, Prod.mk.injEq] at this
        obtain ⟨rfl, rfl⟩ := this
        exact ⟨hw, h⟩
      · rintro ⟨hw, h⟩
        exact ⟨a, e, rfl, hw, h⟩
    rw [hall, ← algorithm_iff]
    simp only
    cases hl : algorithmLoop 0 a with
    | error x => simp
    | ok u =>
      simp only
      cases hf : e.find? (fun c => !encodedChar c) with
      | some c =>
        have h := List.find?_some hf
        have hm := List.mem_of_find?_eq_some hf
        simp only [reduceCtorEq, false_iff]
        rintro ⟨⟨_, _, h2⟩, _⟩
        have := encodedChar_iff.2 (h2 c hm)
        simp [this] at h
      | none =>
        have h : ∀ c ∈ e, c ∈ alnum ++ "=_-".toList := fun c hc => encodedChar_iff.1 (by
          have := List.find?_eq_none.1 hf c hc; simpa using this)
        simp only [List.isEmpty_iff]
        by_cases h1 : a = []
        · simp [h1]
        · by_cases h2 : a.head?.any charIsAlnum = true
          · by_cases h3 : a.getLast?.any charIsAlnum = true
            · by_cases h4 : e = []
              · simp [h1, h2, h3, h4]
              · simp only [h1, h2, h3, h4, Bool.not_true, Bool.false_eq_true, if_false, Except.ok.injEq, ne_eq,
                  not_false_eq_true, and_self, true_and]
                exact ⟨fun x => ⟨h, x.symm⟩, fun x => x.2.symm⟩
            · simp [h1, h2, h3]
          · simp [h1, h2]

/-! Parsing -/

theorem pushToString_eq (t : TagOrDigest) (s : Str) : t.pushToString s = s ++ suffix (some t) := by
  cases t <;> rfl

theorem ImageTag_chars {t : Str} (h : ImageTag t) {c : Char} (hc : c ∉ alnum ++ "._-".toList := by decide) : c ∉ t :=
  fun hm => hc ((plus_cls.1 h.1).2 c hm)

theorem imageName_cases {name : Str} (h : ImageName name) :
    FirstPart name ∨ ∃ f rest, name = f ++ '/' :: rest ∧ FirstPart f ∧ ':' ∉ rest ∧ '@' ∉ rest := by
  obtain ⟨f, ps, hs, hf, hp⟩ := imageName_iff.1 h
  have e : name = joinWith '/' (f :: ps) := by rw [← hs, joinWith_split]
  cases ps with
  | nil => left; rw [e]; exact hf
  | cons p ps =>
    right
    refine ⟨f, joinWith '/' (p :: ps), by rw [e, joinWith], hf, ?_, ?_⟩
    all_goals
      clear e hs h
      induction ps generalizing p with
      | nil => simpa [joinWith] using (hp p (by simp)).not_mem
      | cons q qs ih =>
        rw [joinWith]
        have h1 := (hp p (by simp))
        have h2 := ih q (fun x hx => hp x (by simp at hx ⊢; right; exact hx))
        simp only [List.mem_append, List.mem_cons, not_or]
        exact ⟨h1.not_mem, by decide, h2⟩

theorem FirstPart_not_at {s : Str} (h : FirstPart s) : '@' ∉ s := by
  rcases h with ⟨_, h | ⟨host, port, n, rfl, hh, hp⟩⟩ | ⟨_, h⟩
  · exact h.not_mem
  · simp only [List.mem_append, List.mem_cons, not_or]
    refine ⟨hh.not_mem, by decide, fun hm => ?_⟩
    rcases hp.chars _ hm with h | h
    · simp [isDigit] at h
    · simp at h
  · exact h.not_mem

theorem ImageName_not_at {s : Str} (h : ImageName s) : '@' ∉ s := by
  rcases imageName_cases h with h | ⟨f, r, rfl, hf, _, hr⟩
  · exact FirstPart_not_at h
  · simp [FirstPart_not_at hf, hr]

theorem portLast_iff {name : Str} (h : ImageName name) :
    PortLast name ↔ ∃ a t, name = a ++ ':' :: t ∧ ':' ∉ t ∧ '/' ∉ t := by
  unfold PortLast
  constructor
  · rintro ⟨h1, h2⟩
    cases hr : rsplitOnce ':' name with
    | none => exact absurd h1 (rsplitOnce_eq_none.1 hr)
    | some q =>
      obtain ⟨a, t⟩ := q
      obtain ⟨e, ht⟩ := rsplitOnce_eq_some.1 hr
      exact ⟨a, t, e, ht, fun hm => h2 (by rw [e]; simp [hm])⟩
  · rintro ⟨a, t, rfl, ht, hs⟩
    refine ⟨by simp, ?_⟩
    rcases imageName_cases h with h | ⟨f, r, e, hf, hr, _⟩
    · exact h.not_slash
    · exfalso
      rcases List.append_eq_append_iff.1 e with ⟨x, rfl, hx⟩ | ⟨x, rfl, hx⟩
      · have : '/' ∈ ':' :: t := by rw [hx]; simp
        simp [hs] at this
      · have : ':' ∈ '/' :: r := by rw [hx]; simp
        simp [hr] at this

theorem splitTag_iff {image im : Str} {st : Option Nat} : splitTag image = .ok (im, st) ↔
    (im = image ∧ st = none ∧ ¬ ∃ a t, image = a ++ ':' :: t ∧ ':' ∉ t ∧ '/' ∉ t) ∨
    (∃ t, image = im ++ ':' :: t ∧ ImageTag t ∧ st = some (byteLen im + 1)) := by
  unfold splitTag
  cases hr : rsplitOnce ':' image with
  | none =>
    have hn := rsplitOnce_eq_none.1 hr
    simp only [Option.filter_none, Except.ok.injEq, Prod.mk.injEq]
    constructor
    · rintro ⟨rfl, rfl⟩
      left
      refine ⟨rfl, rfl, ?_⟩
      rintro ⟨a, t, rfl, _⟩
      simp at hn
    · rintro (⟨rfl, rfl, _⟩ | ⟨t, rfl, _⟩)
      · exact ⟨rfl, rfl⟩
      · simp at hn
  | some q =>
    obtain ⟨a, t⟩ := q
    obtain ⟨rfl, ht⟩ := rsplitOnce_eq_some.1 hr
    have uniq : ∀ a' t', a ++ ':' :: t = a' ++ ':' :: t' → ':' ∉ t' → a = a' ∧ t = t' := by
      intro a' t' e h
      have := rsplitOnce_eq_some.2 ⟨e, h⟩
      rw [hr] at this
      simpa using this
    by_cases hs : '/' ∈ t
    · simp only [Option.filter_some, List.contains_eq_mem, hs, decide_true, Bool.not_true, Bool.false_eq_true,
        if_false, Except.ok.injEq, Prod.mk.injEq]
      constructor
      · rintro ⟨rfl, rfl⟩
        left
        refine ⟨rfl, rfl, ?_⟩
        rintro ⟨a', t', e, h1, h2⟩
        obtain ⟨_, rfl⟩ := uniq _ _ e h1
        exact h2 hs
      · rintro (⟨rfl, rfl, _⟩ | ⟨t', e, h, _⟩)
        · exact ⟨rfl, rfl⟩
        · obtain ⟨_, rfl⟩ := uniq _ _ e (ImageTag_chars h)
          exact absurd hs (ImageTag_chars h)
    · simp only [Option.filter_some, List.contains_eq_mem, hs, decide_false, Bool.not_false, if_true]
      cases hn : tagNew t with
      | error e =>
        simp only [reduceCtorEq, false_iff]
        rintro (⟨_, _, h⟩ | ⟨t', e, h, _⟩)
        · exact h ⟨a, t, rfl, ht, hs⟩
        · obtain ⟨_, rfl⟩ := uniq _ _ e (ImageTag_chars h)
          rw [tagNew_iff.2 ⟨h, rfl⟩] at hn
          simp at hn
      | ok t' =>
        obtain ⟨hT, rfl⟩ := tagNew_iff.1 hn
        simp only [Except.ok.injEq, Prod.mk.injEq]
        constructor
        · rintro ⟨rfl, rfl⟩
          exact .inr ⟨t', rfl, hT, rfl⟩
        · rintro (⟨_, _, h⟩ | ⟨t', e, h, rfl⟩)
          · exact absurd ⟨a, t', rfl, ht, hs⟩ h
          · obtain ⟨rfl, rfl⟩ := uniq _ _ e (ImageTag_chars h)
            exact ⟨rfl, rfl⟩

theorem splitDigest_iff {image im : Str} {st : Option Nat} : splitDigest image = .ok (im, st) ↔
    (im = image ∧ st = none ∧ '@' ∉ image) ∨
    (∃ d, image = im ++ '@' :: d ∧ '@' ∉ im ∧ ImageDigest d ∧ st = some (byteLen im + 1)) := by
  unfold splitDigest
  cases hr : splitOnce '@' image with
  | none =>
    have hn := splitOnce_eq_none.1 hr
    simp only [Except.ok.injEq, Prod.mk.injEq]
    constructor
    · rintro ⟨rfl, rfl⟩
      exact .inl ⟨rfl, rfl, hn⟩
    · rintro (⟨rfl, rfl, _⟩ | ⟨t, rfl, _⟩)
      · exact ⟨rfl, rfl⟩
      · simp at hn
  | some q =>
    obtain ⟨a, d⟩ := q
    obtain ⟨rfl, ha⟩ := splitOnce_eq_some.1 hr
    have uniq : ∀ a' t', a ++ '@' :: d = a' ++ '@' :: t' → '@' ∉ a' → a = a' ∧ d = t' := by
      intro a' t' e h
      have := splitOnce_eq_some.2 ⟨e, h⟩
      rw [hr] at this
      simpa using this
    simp only
    cases hn : digestNew d with
    | error e =>
      simp only [reduceCtorEq, false_iff]
      rintro (⟨_, _, h⟩ | ⟨t', e, h, h', _⟩)
      · simp at h
      · obtain ⟨_, rfl⟩ := uniq _ _ e h
        rw [digestNew_iff.2 ⟨h', rfl⟩] at hn
        simp at hn
    | ok t' =>
      obtain ⟨hT, rfl⟩ := digestNew_iff.1 hn
      simp only [Except.ok.injEq, Prod.mk.injEq]
      constructor
      · rintro ⟨rfl, rfl⟩
        exact .inr ⟨t', rfl, ha, hT, rfl⟩
      · rintro (⟨_, _, h⟩ | ⟨t', e, h, h', rfl⟩)
        · simp at h
        · obtain ⟨rfl, rfl⟩ := uniq _ _ e h
          exact ⟨rfl, rfl⟩

/-- An image with a given cached registry, name and tag or digest. -/
def mkImage (reg : Option Str) (name : Str) (t : Option TagOrDigest) : Image :=
  ⟨name ++ suffix t, reg.map byteLen, t.map (·.asStart (byteLen name))⟩

theorem parse_iff {s : Str} {i : Image} : Image.parse s = .ok i ↔
    ∃ name t, s = name ++ suffix t ∧ ImageName name ∧ ValidTod t ∧ (PortLast name → isTag t) ∧
      i = mkImage (registryOf name) name t := by
  constructor
  · intro h
    unfold Image.parse at h
    cases hp : parseImpl s with
    | error e => rw [hp] at h; simp at h
    | ok q =>
      obtain ⟨re, st⟩ := q
      rw [hp] at h
      simp only [Except.ok.injEq] at h
      unfold parseImpl at hp
      cases hd : splitDigest s with
      | error e => rw [hd] at hp; simp at hp
      | ok q1 =>
        obtain ⟨im1, ds⟩ := q1
        rw [hd] at hp
        simp only at hp
        cases ht : splitTag im1 with
        | error e => rw [ht] at hp; simp at hp
        | ok q2 =>
          obtain ⟨im2, ts⟩ := q2
          rw [ht] at hp
          simp only at hp
          cases hc : combineStarts ds ts with
          | error e => rw [hc] at hp; simp at hp
          | ok st' =>
            rw [hc] at hp
            simp only at hp
            cases hn : Image.Name.new im2 with
            | error e => rw [hn] at hp; simp at hp
            | ok n =>
              rw [hn] at hp
              simp only [Except.ok.injEq, Prod.mk.injEq] at hp
              obtain ⟨hre, hst⟩ := hp
              subst hst
              obtain ⟨hN, rfl⟩ := nameNew_iff.1 hn
              simp only at hre
              subst hre
              rcases splitDigest_iff.1 hd with ⟨rfl, rfl, hat⟩ | ⟨d, rfl, hat, hD, rfl⟩ <;>
              rcases splitTag_iff.1 ht with ⟨rfl, rfl, hno⟩ | ⟨t, rfl, hT, rfl⟩ <;>
              simp only [combineStarts, Except.ok.injEq, reduceCtorEq] at hc
              · subst hc
                refine ⟨im2, none, by simp [suffix], hN, trivial, ?_, ?_⟩
                · intro hpl; exact absurd ((portLast_iff hN).1 hpl) hno
                · rw [← h]; simp [mkImage, suffix]
              · subst hc
                refine ⟨im2, some (.tag t), by simp [suffix], hN, hT, ?_, ?_⟩
                · intro _; trivial
                · rw [← h]; simp [mkImage, suffix, TagOrDigest.asStart]
              · subst hc
                refine ⟨im2, some (.digest d), by simp [suffix], hN, hD, ?_, ?_⟩
                · intro hpl; exact absurd ((portLast_iff hN).1 hpl) hno
                · rw [← h]; simp [mkImage, suffix, TagOrDigest.asStart]
  · rintro ⟨name, t, rfl, hN, hT, hP, rfl⟩
    have hN' := nameNew_iff.2 ⟨hN, rfl⟩
    have hat := ImageName_not_at hN
    match t, hT, hP with
    | none, _, hP =>
      have h1 : splitDigest name = .ok (name, none) := splitDigest_iff.2 (.inl ⟨rfl, rfl, hat⟩)
      have h2 : splitTag name = .ok (name, none) :=
        splitTag_iff.2 (.inl ⟨rfl, rfl, fun h => hP ((portLast_iff hN).2 h)⟩)
      simp [Image.parse, parseImpl, suffix, h1, h2, combineStarts, hN', mkImage]
    | some (.tag t), hT, _ =>
      have hT' : ImageTag t := hT
      have h1 : splitDigest (name ++ ':' :: t) = .ok (name ++ ':' :: t, none) :=
        splitDigest_iff.2 (.inl ⟨rfl, rfl, by simp [hat, ImageTag_chars hT' (c := '@')]⟩)
      have h2 : splitTag (name ++ ':' :: t) = .ok (name, some (byteLen name + 1)) :=
        splitTag_iff.2 (.inr ⟨t, rfl, hT', rfl⟩)
      simp [Image.parse, parseImpl, suffix, h1, h2, combineStarts, hN', mkImage, TagOrDigest.asStart]
    | some (.digest d), hT, hP =>
      have h1 : splitDigest (name ++ '@' :: d) = .ok (name, some (byteLen name + 1)) :=
        splitDigest_iff.2 (.inr ⟨d, rfl, hat, hT, rfl⟩)
      have h2 : splitTag name = .ok (name, none) :=
        splitTag_iff.2 (.inl ⟨rfl, rfl, fun h => hP ((portLast_iff hN).2 h)⟩)
      simp [Image.parse, parseImpl, suffix, h1, h2, combineStarts, hN', mkImage, TagOrDigest.asStart]

/-! Getters and setters on a well formed image -/

theorem byteLen_sep {c : Char} (h : c.toNat < 128 := by decide) (s : Str) : byteLen (s ++ [c]) = byteLen s + 1 := by
  rw [byteLen_append]
  have : byteLen [c] = 1 := by rw [byteLen_of_ascii (by simpa using h)]; rfl
  omega

theorem asStart_intoInner (t : TagOrDigest) (n : Nat) : (t.asStart n).intoInner = n + 1 := by cases t <;> rfl

theorem asStart_map (t : TagOrDigest) (n : Nat) (f : Nat → Nat) : (t.asStart n).map f =
    match t with | .tag _ => .tag (f (n + 1)) | .digest _ => .digest (f (n + 1)) := by cases t <;> rfl

theorem mkImage_nameEnd (reg : Option Str) (name : Str) (t : Option TagOrDigest) :
    (mkImage reg name t).nameEnd = some (byteLen name) := by
  cases t with
  | none => simp [Image.nameEnd, mkImage, suffix]
  | some t => simp [Image.nameEnd, mkImage, asStart_intoInner]

theorem mkImage_name (reg : Option Str) (name : Str) (t : Option TagOrDigest) :
    (mkImage reg name t).name = some name := by
  unfold Image.name
  rw [mkImage_nameEnd]
  simp [mkImage, sliceTo_append]

theorem sliceFrom_sep (name t : Str) (c : Char) (h : c.toNat < 128 := by decide) :
    sliceFrom (name ++ c :: t) (byteLen name + 1) = some t := by
  have e : name ++ c :: t = (name ++ [c]) ++ t := by simp
  rw [e, ← byteLen_sep h, sliceFrom_append]

theorem replaceFrom_sep (name t w : Str) (c : Char) (h : c.toNat < 128 := by decide) :
    replaceFrom (name ++ c :: t) (byteLen name + 1) w = some (name ++ c :: w) := by
  have e : name ++ c :: t = (name ++ [c]) ++ t := by simp
  rw [e, ← byteLen_sep h, replaceFrom_append]; simp

theorem mkImage_asTagOrDigest (reg : Option Str) (name : Str) (t : Option TagOrDigest) :
    (mkImage reg name t).asTagOrDigest = some t := by
  match t with
  | none => simp [Image.asTagOrDigest, mkImage]
  | some (.tag t) => simp [Image.asTagOrDigest, mkImage, suffix, TagOrDigest.asStart, sliceFrom_sep]
  | some (.digest t) => simp [Image.asTagOrDigest, mkImage, suffix, TagOrDigest.asStart, sliceFrom_sep]

theorem mkImage_tag (reg : Option Str) (name : Str) (t : Option TagOrDigest) :
    (mkImage reg name t).tag = some (match t with | some (.tag t) => some t | _ => none) := by
  match t with
  | none => simp [Image.tag, mkImage]
  | some (.tag t) => simp [Image.tag, mkImage, suffix, TagOrDigest.asStart, sliceFrom_sep]
  | some (.digest t) => simp [Image.tag, mkImage, TagOrDigest.asStart]

theorem mkImage_digest (reg : Option Str) (name : Str) (t : Option TagOrDigest) :
    (mkImage reg name t).digest = some (match t with | some (.digest t) => some t | _ => none) := by
  match t with
  | none => simp [Image.digest, mkImage]
  | some (.tag t) => simp [Image.digest, mkImage, TagOrDigest.asStart]
  | some (.digest t) => simp [Image.digest, mkImage, suffix, TagOrDigest.asStart, sliceFrom_sep]

/-- The cached registry is a prefix of the name. -/
def RegPrefix (reg : Option Str) (name : Str) : Prop := ∀ r, reg = some r → ∃ z, name = r ++ z

theorem mkImage_registry {reg : Option Str} {name : Str} (t : Option TagOrDigest) (h : RegPrefix reg name) :
    (mkImage reg name t).registry = some reg := by
  cases reg with
  | none => rfl
  | some r =>
    obtain ⟨z, rfl⟩ := h r rfl
    simp [Image.registry, optSliceTo, mkImage, sliceTo_append, List.append_assoc]

theorem mkImage_setTagOrDigest (reg : Option Str) (name : Str) (t t' : Option TagOrDigest) :
    (mkImage reg name t).setTagOrDigest t' = some (mkImage reg name t') := by
  have put : ∀ x, (mkImage reg name t).putTagOrDigest x = some (mkImage reg name (some x)) := by
    intro x
    unfold Image.putTagOrDigest
    rw [mkImage_nameEnd]
    simp [mkImage, truncate_append, pushToString_eq]
  match t', t with
  | none, none => rfl
  | none, some x =>
    simp [Image.setTagOrDigest, mkImage, asStart_intoInner, truncate_append, suffix]
  | some (.tag x), none => exact put _
  | some (.tag x), some (.digest y) => exact put _
  | some (.tag x), some (.tag y) =>
    simp [Image.setTagOrDigest, mkImage, suffix, TagOrDigest.asStart, replaceFrom_sep]
  | some (.digest x), none => exact put _
  | some (.digest x), some (.tag y) => exact put _
  | some (.digest x), some (.digest y) =>
    simp [Image.setTagOrDigest, mkImage, suffix, TagOrDigest.asStart, replaceFrom_sep]

theorem updateStart_eq (t : Option TagOrDigest) (m old new : Nat) (h : old ≤ m) :
    updateStart old new (t.map (·.asStart m)) = some (t.map (·.asStart (m - old + new))) := by
  cases t with
  | none => rfl
  | some t =>
    simp only [updateStart, Option.map_some, asStart_intoInner]
    split
    · cases t <;> simp [TagOrDigest.asStart, Start.map] <;> omega
    · split
      · cases t <;> simp [TagOrDigest.asStart] <;> omega
      · rw [if_pos (by omega)]
        cases t <;> simp [TagOrDigest.asStart, Start.map] <;> omega

theorem mkImage_setName (reg : Option Str) (name : Str) (t : Option TagOrDigest) (reg' : Option Str) (name' : Str) :
    (mkImage reg name t).setName ⟨name', reg'.map byteLen⟩ = some (mkImage reg' name' t) := by
  unfold Image.setName
  rw [mkImage_nameEnd]
  simp only [mkImage, Option.bind_eq_bind, Option.bind_some, replaceTo_append,
    updateStart_eq t (byteLen name) (byteLen name) (byteLen name') (Nat.le_refl _)]
  simp

theorem mkImage_setRegistry_replace (r z : Str) (t : Option TagOrDigest) (n : Image.Name) :
    (mkImage (some r) (r ++ z) t).setRegistry (some n) = some (mkImage (some n.inner) (n.inner ++ z) t) := by
  unfold Image.setRegistry
  simp only [mkImage, Option.map_some, List.append_assoc, replaceTo_append, Option.bind_eq_bind, Option.bind_some]
  rw [updateStart_eq t _ _ _ (by rw [byteLen_append]; omega)]
  have : byteLen (r ++ z) - byteLen r + byteLen n.inner = byteLen (n.inner ++ z) := by
    rw [byteLen_append, byteLen_append]; omega
  simp [this]

theorem mkImage_setRegistry_add (name : Str) (t : Option TagOrDigest) (n : Image.Name) :
    (mkImage none name t).setRegistry (some n) = some (mkImage (some n.inner) (n.inner ++ '/' :: name) t) := by
  unfold Image.setRegistry
  simp only [mkImage, Option.map_none, Option.bind_eq_bind]
  rw [updateStart_eq t _ _ _ (Nat.zero_le _)]
  have : byteLen name - 0 + (byteLen n.inner + 1) = byteLen (n.inner ++ '/' :: name) := by
    have := byteLen_sep (c := '/') (by decide) n.inner
    have e : n.inner ++ '/' :: name = (n.inner ++ ['/']) ++ name := by simp
    rw [e, byteLen_append, this]; omega
  rw [this]
  simp

theorem mkImage_setRegistry_remove (r name : Str) (t : Option TagOrDigest) :
    (mkImage (some r) (r ++ '/' :: name) t).setRegistry none = some (mkImage none name t) := by
  unfold Image.setRegistry
  have e : r ++ '/' :: name = (r ++ ['/']) ++ name := by simp
  have hl := byteLen_sep (c := '/') (by decide) r
  simp only [mkImage, Option.map_some, Option.bind_eq_bind]
  rw [e, ← hl, List.append_assoc, replaceTo_append, updateStart_eq t _ _ _ (by rw [byteLen_append (r ++ ['/'])]; omega)]
  have : byteLen ((r ++ ['/']) ++ name) - byteLen (r ++ ['/']) + 0 = byteLen name := by
    rw [byteLen_append (r ++ ['/'])]; omega
  rw [this]
  simp

end Proofs
