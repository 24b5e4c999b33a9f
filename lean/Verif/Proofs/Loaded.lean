import Verif.Spec.Loaded
import Verif.Spec.Validate
import Verif.Model.Load
import Verif.Proofs.Equality

/- From the document to the fields that validation reads. -/

namespace Proofs.Loaded
open Rust Compose Compose.Derive Spec Spec.Document

/-! ### Keys -/

theorem entries_inj {v : Content} {es es' : List (Str × Content)} (h : Entries v es) (h' : Entries v es') : es = es' := by
  unfold Entries at h h'
  rw [h] at h'
  have := Content.map.inj h'
  refine List.map_injective_iff.2 ?_ this
  rintro ⟨k, x⟩ ⟨k', x'⟩ he
  simp only [Prod.mk.injEq, Content.str.injEq] at he
  rw [he.1, he.2]

theorem lastValue_eq {V : Type} (es : List (Str × V)) (k : Str) :
    lastValue es k = ((es.filter fun e => e.1 = k).map (·.2)).getLast? := by
  unfold lastValue
  rw [← List.head?_filter, List.filter_reverse, List.head?_reverse, List.getLast?_map]

theorem at_iff {v : Content} {es : List (Str × Content)} (h : Entries v es) {k : Str} {x : Content} :
    At v k x ↔ lastValue es k = some x := by
  constructor
  · rintro ⟨es', h1, h2⟩
    rw [entries_inj h h1]; exact h2
  · exact fun h2 => ⟨es, h, h2⟩

theorem at_unique {v : Content} {k : Str} {x y : Content} (h : At v k x) (h' : At v k y) : x = y := by
  obtain ⟨es, h1, h2⟩ := h
  rw [at_iff h1, h2] at h'
  exact Option.some.inj h'

theorem at_given {v : Content} {es : List (Str × Content)} (h : Entries v es) {k : Str} {x y : Content}
    (hg : given es k = [x]) : At v k y ↔ y = x := by
  rw [at_iff h, lastValue_eq]
  unfold given at hg
  rw [hg]
  simp [eq_comm]

theorem at_missing {v : Content} {es : List (Str × Content)} (h : Entries v es) {k : Str} {y : Content}
    (hg : given es k = []) : ¬ At v k y := by
  rw [at_iff h, lastValue_eq]
  unfold given at hg
  rw [hg]
  simp

theorem lastValue_iff {V : Type} (es : List (Str × V)) (k : Str) (x : V) :
    lastValue es k = some x ↔ ∃ b a, es = b ++ (k, x) :: a ∧ k ∉ a.map (·.1) := by
  induction es using List.reverseRecOn with
  | nil => simp [lastValue]
  | append_singleton es e ih =>
    obtain ⟨k', x'⟩ := e
    by_cases hk : k' = k
    · subst hk
      have : lastValue (es ++ [(k', x')]) k' = some x' := by simp [lastValue]
      rw [this]
      constructor
      · intro h
        cases h
        exact ⟨es, [], rfl, by simp⟩
      · rintro ⟨b, a, h1, h2⟩
        rcases List.eq_nil_or_concat a with rfl | ⟨a, y, rfl⟩
        · have := List.append_inj_right' h1 rfl
          simp at this; rw [this]
        · rw [List.concat_eq_append, ← List.cons_append, ← List.append_assoc] at h1
          have := List.append_inj_right' h1 rfl
          simp only [List.cons.injEq, and_true] at this
          rw [← this] at h2
          simp at h2
    · have : lastValue (es ++ [(k', x')]) k = lastValue es k := by simp [lastValue, hk]
      rw [this, ih]
      constructor
      · rintro ⟨b, a, rfl, h⟩
        exact ⟨b, a ++ [(k', x')], by simp, by
          rw [List.map_append, List.mem_append, not_or]
          exact ⟨h, by simpa using fun e => hk e.symm⟩⟩
      · rintro ⟨b, a, h1, h2⟩
        rcases List.eq_nil_or_concat a with rfl | ⟨a, y, rfl⟩
        · have := List.append_inj_right' h1 rfl
          simp only [List.cons.injEq, Prod.mk.injEq, and_true] at this
          exact absurd this.1 hk
        · rw [List.concat_eq_append, ← List.cons_append, ← List.append_assoc] at h1
          refine ⟨b, a, (List.append_inj_left' h1 rfl), ?_⟩
          rw [List.concat_eq_append] at h2
          simp only [List.map_append, List.mem_append, not_or] at h2
          exact h2.1

theorem forall₂_lastValue {α : Type} {K : Str → Prop} {m : Content → α → Prop} {es : List (Str × Content)}
    {all : List (Str × α)} (h : List.Forall₂ (fun e a => K e.1 ∧ a.1 = e.1 ∧ m e.2 a.2) es all) (k : Str) :
    (lastValue es k = none ∧ lastValue all k = none) ∨
      ∃ c x, lastValue es k = some c ∧ lastValue all k = some x ∧ m c x := by
  rw [lastValue_eq, lastValue_eq]
  have : List.Forall₂ m ((es.filter fun e => e.1 = k).map (·.2)) ((all.filter fun e => e.1 = k).map (·.2)) := by
    induction h with
    | nil => exact .nil
    | @cons e a es all h1 _ ih =>
      obtain ⟨_, h2, h3⟩ := h1
      by_cases hk : e.1 = k
      · rw [List.filter_cons_of_pos (by simp [hk]), List.filter_cons_of_pos (by simp [h2, hk])]
        exact .cons h3 ih
      · rw [List.filter_cons_of_neg (by simp [hk]), List.filter_cons_of_neg (by simp [h2, hk])]
        exact ih
  generalize (es.filter fun e => e.1 = k).map (·.2) = l at this
  generalize (all.filter fun e => e.1 = k).map (·.2) = l' at this
  have hr := List.rel_reverse this
  rw [← List.head?_reverse, ← List.head?_reverse]
  generalize l.reverse = r, l'.reverse = r' at hr ⊢
  cases hr with
  | nil => exact Or.inl ⟨rfl, rfl⟩
  | cons h _ => exact Or.inr ⟨_, _, rfl, rfl, h⟩

/-- A mapping and the table it denotes. -/
theorem entries_at {α : Type} {K : Str → Prop} {m : Meaning α} {v : Content} {l : List (Str × α)}
    (h : Meaning.entries K m v l) :
    (∀ k x, (k, x) ∈ l → ∃ c, At v k c ∧ m c x) ∧ (∀ k c, At v k c → ∃ x, (k, x) ∈ l ∧ m c x) := by
  obtain ⟨es, all, h1, h2, h3⟩ := h
  have hl : ∀ k x, (k, x) ∈ l ↔ lastValue all k = some x := fun k x => by rw [h3.2, lastValue_iff]
  constructor
  · intro k x hx
    rw [hl] at hx
    rcases forall₂_lastValue h2 k with ⟨_, hn⟩ | ⟨c, x', hc, hx', hm⟩
    · rw [hx] at hn; cases hn
    · rw [hx] at hx'; cases hx'
      exact ⟨c, (at_iff h1).2 hc, hm⟩
  · intro k c hc
    rw [at_iff h1] at hc
    rcases forall₂_lastValue h2 k with ⟨hn, _⟩ | ⟨c', x', hc', hx', hm⟩
    · rw [hc] at hn; cases hn
    · rw [hc] at hc'; cases hc'
      exact ⟨x', (hl k x').2 hx', hm⟩

theorem firsts_nodup {α : Type} [DecidableEq α] (l : List α) : (firsts l).Nodup := by
  induction l with
  | nil => simp [firsts]
  | cons x l ih =>
    simp only [firsts, List.nodup_cons]
    exact ⟨by simp, ih.filter _⟩

theorem entries_nodup {α : Type} {K : Str → Prop} {m : Meaning α} {v : Content} {l : List (Str × α)}
    (h : Meaning.entries K m v l) : (l.map Prod.fst).Nodup := by
  obtain ⟨es, all, h1, h2, h3⟩ := h
  have := h3.1
  rw [show l.map Prod.fst = _ from this]
  exact firsts_nodup _

/-- A section that may be missing. -/
theorem section_at {α : Type} {K : Str → Prop} {m : Meaning α} {doc : Content} {es : List (Str × Content)}
    {key : String} {l : List (Str × α)} (hd : Entries doc es)
    (h : (∃ v, given es key.toList = [v] ∧ Meaning.entries K m v l) ∨ (given es key.toList = [] ∧ some [] = some l)) (name : Str) :
    Declares doc key name ↔ Spec.Declared (Load.keys l) name := by
  unfold Declares Spec.Declared Load.keys
  rcases h with ⟨v, hv, he⟩ | ⟨hn, hl⟩
  · have := entries_at he
    constructor
    · rintro ⟨es', x, h1, h2⟩
      rw [at_given hd hv] at h1
      subst h1
      obtain ⟨y, hy, _⟩ := this.2 _ _ h2
      exact ⟨(), List.mem_map.2 ⟨_, hy, rfl⟩⟩
    · rintro ⟨_, h1⟩
      obtain ⟨⟨k, y⟩, hy, heq⟩ := List.mem_map.1 h1
      cases heq
      obtain ⟨c, hc, _⟩ := this.1 _ _ hy
      exact ⟨v, c, (at_given hd hv).2 rfl, hc⟩
  · cases hl
    constructor
    · rintro ⟨_, _, h1, _⟩
      exact absurd h1 (at_missing hd hn)
    · rintro ⟨_, h⟩
      simp at h

/-! ### Sets -/

theorem firstsBy_mem {α : Type} (same : α → α → Prop) (l : List α) :
    ∀ y ∈ l, ∃ x ∈ Meaning.firstsBy same l, y = x ∨ same y x := by
  classical
  induction hn : l.length using Nat.strong_induction_on generalizing l with
  | _ n ih =>
    cases l with
    | nil => simp
    | cons x xs =>
      intro y hy
      rw [Props.firstsBy_cons]
      rcases List.mem_cons.1 hy with rfl | hy
      · exact ⟨y, by simp, Or.inl rfl⟩
      · by_cases hs : same y x
        · exact ⟨x, by simp, Or.inr hs⟩
        · have hlen : (xs.filter fun y => ¬ same y x).length < n := by
            have := List.length_filter_le (fun y => decide ¬ same y x) xs
            rw [← hn, List.length_cons]
            omega
          obtain ⟨z, hz, h⟩ := ih _ hlen _ rfl y (List.mem_filter.2 ⟨hy, by simp [hs]⟩)
          exact ⟨z, List.mem_cons_of_mem _ hz, h⟩

theorem firstsBy_sublist {α : Type} (same : α → α → Prop) (l : List α) : (Meaning.firstsBy same l).Sublist l := by
  classical
  induction hn : l.length using Nat.strong_induction_on generalizing l with
  | _ n ih =>
    cases l with
    | nil => simp [Meaning.firstsBy]
    | cons x xs =>
      rw [Props.firstsBy_cons]
      have hlen : (xs.filter fun y => ¬ same y x).length < n := by
        have := List.length_filter_le (fun y => decide ¬ same y x) xs
        rw [← hn, List.length_cons]
        omega
      exact ((ih _ hlen _ rfl).trans List.filter_sublist).cons_cons x

end Proofs.Loaded
