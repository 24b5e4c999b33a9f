import Verif.Spec.Expansion
import Verif.Props.Macros

/- C108: what the derive macros write for the structs they accept. -/

namespace Props
open Rust Compose Compose.Macros Spec

variable {E : Type}

private theorem condition_conjunction (f : OtherDecl E) (rest : List (OtherDecl E)) :
    Conjunction (condition (f :: rest)) ((f :: rest).map fun o => .call o.question o.ident) := by
  induction rest generalizing f with
  | nil => exact .one (.call _ _)
  | cons g rest ih => exact .and (.call _ _) (ih g)

/-- A condition has one list of operands. -/
private theorem conjunction_ops {text ops ops' : List (Piece E)} (h : Conjunction text ops) (h' : Conjunction text ops') :
    ops = ops' := by
  induction h generalizing ops' with
  | one hp => cases h'; rfl
  | and hp rest ih =>
    cases h' with
    | and _ rest' => rw [ih rest']

private theorem conjunction_ne_nil {text ops : List (Piece E)} (h : Conjunction text ops) : text ≠ [] := by
  cases h <;> simp

/-- The text is an `if` with an `else`, whatever it says. -/
private theorem ifElse_body (short : ShortField) (others : List (OtherDecl E)) (ops : List (Piece E)) (a b : Braces)
    (h : IfElse (asShortBody short others) ops a b) :
    Conjunction (condition others) ops ∧ a = .short short.ident short.optional ∧ b = .none := by
  obtain ⟨cond, hc, he⟩ := h
  unfold asShortBody at he
  rw [List.cons_append, List.cons_append, List.nil_append, List.cons_append, List.cons.injEq] at he
  obtain ⟨h1, h2⟩ := List.append_inj' he.2 rfl
  rw [h1]
  simp only [List.cons.injEq, Piece.braces.injEq, true_and, and_true] at h2
  exact ⟨hc, h2.1.symm, h2.2.symm⟩

/-- C108: the body of `as_short` asks every other field its question, in order, and answers with the short field if all of
them hold. -/
theorem C108_as_short_partial (short : ShortField) (others : List (OtherDecl E)) (ops : List (Piece E)) (a b : Braces) :
    IfElse (asShortBody short others) ops a b ↔
      others ≠ [] ∧ ops = others.map (fun o => .call o.question o.ident) ∧ a = .short short.ident short.optional ∧
        b = .none := by
  constructor
  · intro h
    obtain ⟨hc, ha, hb⟩ := ifElse_body short others ops a b h
    cases others with
    | nil => exact absurd rfl (conjunction_ne_nil hc)
    | cons f rest =>
      exact ⟨List.cons_ne_nil _ _, conjunction_ops hc (condition_conjunction f rest), ha, hb⟩
  · rintro ⟨hne, rfl, rfl, rfl⟩
    cases others with
    | nil => exact absurd rfl hne
    | cons f rest => exact ⟨_, condition_conjunction f rest, rfl⟩

example : IfElse (asShortBody ⟨"path".toList, .path false false [.mk "String".toList .none], false⟩
      [(⟨none, none, "required".toList, .path false false [.mk "bool".toList .none]⟩ : OtherDecl Nat),
        ⟨some 7, none, "format".toList, .path false false [.mk "String".toList .none]⟩])
    [.call .not "required".toList, .call (.given 7) "format".toList] (.short "path".toList false) .none :=
  (C108_as_short_partial _ _ _ _ _).mpr ⟨by simp, rfl, rfl, rfl⟩

/-- C108 does not hold for a struct that has no field but the short one: there is no condition after `if`. -/
theorem C108_as_short_false :
    ¬ ∀ (data : Option (List (FieldDecl Unit))) (short : ShortField) (others : List (OtherDecl Unit)),
      asShortFromSyn data = .ok (short, others) → ∃ ops a b, IfElse (asShortBody short others) ops a b := by
  intro h
  obtain ⟨ops, a, b, hi⟩ := h (some [⟨"path".toList, .path false false [.mk "String".toList .none], [.asShort [.short]]⟩])
    ⟨"path".toList, .path false false [.mk "String".toList .none], false⟩ [] rfl
  exact ((C108_as_short_partial _ _ _ _ _).mp hi).1 rfl

/-- C108: `From<Short>` sets each field once. -/
theorem C108_from_short (fields : List (FieldDecl E)) (short : ShortField) (others : List (OtherDecl E))
    (h : asShortFromSyn (some fields) = .ok (short, others)) :
    ∃ entries, entries.Perm (fromShortFields short others) ∧ List.Forall₂ SetFromShort fields entries := by
  obtain ⟨before, f, after, he, hf, hs, ho⟩ := (C104_as_short _ _ _).mp h
  cases he
  obtain ⟨others1, others2, h1, h2, rfl⟩ :
      ∃ o1 o2, List.Forall₂ KeptAs before o1 ∧ List.Forall₂ KeptAs after o2 ∧ others = o1 ++ o2 := by
    clear h
    induction before generalizing others with
    | nil => exact ⟨[], others, .nil, ho, rfl⟩
    | cons g before ih =>
      cases ho with
      | cons hg ho =>
        obtain ⟨o1, o2, h1, h2, rfl⟩ := ih _ ho
        exact ⟨_ :: o1, o2, .cons hg h1, h2, rfl⟩
  let entry : OtherDecl E → Str × Initial E := fun field => (field.ident, match field.default with
      | some f => .call f
      | none => .default)
  have kept : ∀ {fs : List (FieldDecl E)} {os : List (OtherDecl E)}, List.Forall₂ KeptAs fs os →
      List.Forall₂ SetFromShort fs (os.map entry) := by
    intro fs os h
    induction h with
    | nil => exact .nil
    | @cons g o fs os hg hrest ih =>
      refine .cons ?_ ih
      obtain ⟨hentries, hident, -⟩ := hg
      refine ⟨hident, ?_⟩
      cases hd : o.default with
      | none => exact .inr (.inr (.inr ⟨_, hd ▸ hentries, by simp [entry, hd]⟩))
      | some d => exact .inr (.inr (.inl ⟨_, d, hd ▸ hentries, by simp [entry, hd]⟩))
  refine ⟨others1.map entry ++ (short.ident, if short.optional then .someArgument else .argument) :: others2.map entry,
    ?_, ?_⟩
  · refine List.perm_middle.trans ?_
    rw [← List.map_append]
    exact List.Perm.refl _
  · refine List.rel_append (kept h1) (.cons ?_ (kept h2))
    obtain ⟨hi, ho | ho⟩ := hs
    · exact ⟨hi, .inl ⟨hf, ⟨_, ho.2⟩, by simp [ho.1]⟩⟩
    · exact ⟨hi, .inr (.inl ⟨hf, ho.2.2, by simp [ho.1]⟩)⟩

example : asShortFromSyn (some [
      (⟨"required".toList, .path false false [.mk "bool".toList .none], [.asShort [.default (some 3)]]⟩ : FieldDecl Nat),
      ⟨"path".toList, .path false false [.mk "String".toList .none], [.asShort [.short]]⟩]) =
    .ok (⟨"path".toList, .path false false [.mk "String".toList .none], false⟩,
      [⟨none, some 3, "required".toList, .path false false [.mk "bool".toList .none]⟩]) := rfl

/-- C108: `Default` sets the fields in order. -/
theorem C108_default (data : Option (List (Str × List (DefaultAttr E)))) (entries : List (Str × Initial E)) :
    defaultExpand data = .ok entries ↔ ∃ fields, data = some fields ∧ List.Forall₂ SetByDefault fields entries := by
  cases data with
  | none =>
    constructor
    · intro h; cases h
    · rintro ⟨_, h, -⟩; cases h
  | some fields =>
    have key : defaultFields fields = .ok entries ↔ List.Forall₂ SetByDefault fields entries := by
      induction fields generalizing entries with
      | nil =>
        constructor
        · intro h; cases h; exact .nil
        · intro h; cases h; rfl
      | cons field fields ih =>
        obtain ⟨ident, attrs⟩ := field
        unfold defaultFields
        constructor
        · intro h
          cases hd : defaultFromSyn attrs with
          | error e => rw [hd] at h; cases h
          | ok d =>
            rw [hd] at h
            cases hr : defaultFields fields with
            | error e => rw [hr] at h; cases h
            | ok rest =>
              rw [hr] at h
              cases h
              refine .cons ⟨rfl, ?_⟩ ((ih rest).mp hr)
              rcases (C104_default attrs d).mp hd with ⟨he, rfl⟩ | ⟨e, he, rfl⟩
              · exact .inr ⟨he, rfl⟩
              · exact .inl ⟨e, he, rfl⟩
        · intro h
          cases h with
          | @cons _ entry _ rest hf hrest =>
            obtain ⟨name, v⟩ := entry
            obtain ⟨hn, ⟨e, he, hv⟩ | ⟨he, hv⟩⟩ := hf
            · cases hn; cases hv
              rw [(C104_default attrs (some e)).mpr (.inr ⟨e, he, rfl⟩), (ih rest).mpr hrest]
            · cases hn; cases hv
              rw [(C104_default attrs none).mpr (.inl ⟨he, rfl⟩), (ih rest).mpr hrest]
    show defaultFields fields = .ok entries ↔ _
    rw [key]
    constructor
    · intro h; exact ⟨fields, rfl, h⟩
    · rintro ⟨_, he, h⟩; cases he; exact h

example : defaultExpand (some [("required".toList, [.other, .default (some 1)]), ("path".toList, [])]) =
    .ok [("required".toList, Initial.value 1), ("path".toList, .default)] := rfl

end Props
