import Verif.Model.CpuSet
import Verif.Spec.CpuSet
import Verif.Proofs.Number
import Verif.Proofs.Path
import Mathlib.Data.List.Sort

/- C48: CPU sets. -/

namespace Props
open Rust Compose Spec

theorem intercalate_eq (c : Char) (ps : List Str) : List.intercalate [c] ps = joinWith c ps := by
  match ps with
  | [] => rfl
  | [p] => simp [joinWith]
  | p :: q :: ps =>
    have := intercalate_eq c (q :: ps)
    simp only [joinWith, ← this]
    simp [List.intercalate]

theorem exists_mem_cons' {α : Type} {p : α → Prop} {x : α} {l : List α} :
    (∃ a, a ∈ x :: l ∧ p a) ↔ p x ∨ ∃ a, a ∈ l ∧ p a := by simp

theorem mem_btreeInsert (x y : Nat) (s : List Nat) : y ∈ btreeInsert x s ↔ y = x ∨ y ∈ s := by
  induction s with
  | nil => simp [btreeInsert]
  | cons z zs ih =>
    unfold btreeInsert
    split
    · simp
    split
    · rename_i h; subst h; simp
    · simp [ih]; tauto

theorem increasing_btreeInsert (x : Nat) (s : List Nat) (h : Increasing s) : Increasing (btreeInsert x s) := by
  unfold Increasing at *
  induction s with
  | nil => simp [btreeInsert]
  | cons z zs ih =>
    unfold btreeInsert
    rw [List.pairwise_cons] at h
    split
    · rename_i hx
      rw [List.pairwise_cons, List.pairwise_cons]
      refine ⟨?_, h⟩
      intro y hy
      rcases List.mem_cons.1 hy with rfl | hy
      · exact hx
      · have := h.1 y hy; omega
    split
    · rw [List.pairwise_cons]; exact h
    · rw [List.pairwise_cons]
      refine ⟨?_, ih h.2⟩
      intro y hy
      rcases (mem_btreeInsert _ _ _).1 hy with rfl | hy
      · omega
      · exact h.1 y hy

theorem mem_btreeExtend (xs : List Nat) (s : List Nat) (y : Nat) : y ∈ btreeExtend s xs ↔ y ∈ s ∨ y ∈ xs := by
  unfold btreeExtend
  induction xs generalizing s with
  | nil => simp
  | cons x xs ih => simp [ih, mem_btreeInsert]; tauto

theorem increasing_btreeExtend (xs : List Nat) (s : List Nat) (h : Increasing s) : Increasing (btreeExtend s xs) := by
  unfold btreeExtend
  induction xs generalizing s with
  | nil => simpa
  | cons x xs ih => exact ih _ (increasing_btreeInsert x s h)

theorem mem_rangeInclusive (a b x : Nat) : x ∈ rangeInclusive a b ↔ a ≤ x ∧ x ≤ b := by
  simp [rangeInclusive, List.mem_range'_1]; omega

theorem increasing_ext {s t : List Nat} (hs : Increasing s) (ht : Increasing t) (h : ∀ x, x ∈ s ↔ x ∈ t) : s = t :=
  List.Pairwise.eq_of_mem_iff (r := (· < ·)) hs ht (fun {a} => h a)

theorem parseCpu_iff (s : Str) (n : Nat) : parseCpu s = .ok n ↔ UInt u64Max s n := by
  unfold parseCpu
  rw [← parseUnsigned_iff]
  split <;> simp_all

theorem uint_no_char {max n : Nat} {s : Str} (h : UInt max s n) {c : Char} (hc : isDigit c = false) (hp : c ≠ '+') :
    c ∉ s := by
  intro hm
  rcases h.chars c hm with h | h
  · rw [hc] at h; cases h
  · exact hp h

theorem parseItem_ok {inner r : List Nat} {s : Str} (hin : Increasing inner) (h : CpuSet.parseItem inner s = .ok r) :
    ∃ P, CpuItem s P ∧ Increasing r ∧ ∀ x, x ∈ r ↔ x ∈ inner ∨ P x := by
  unfold CpuSet.parseItem at h
  split at h
  · rename_i a b hab
    split at h
    · cases h
    rename_i m hm
    split at h
    · cases h
    rename_i n hn
    cases h
    rw [parseCpu_iff] at hm hn
    obtain ⟨rfl, -⟩ := splitOnce_eq_some.1 hab
    refine ⟨_, by simpa using CpuItem.range hm hn, increasing_btreeExtend _ _ hin, fun x => ?_⟩
    rw [mem_btreeExtend, mem_rangeInclusive]
  · split at h
    · cases h
    rename_i m hm
    cases h
    rw [parseCpu_iff] at hm
    refine ⟨_, CpuItem.one hm, increasing_btreeInsert _ _ hin, fun x => ?_⟩
    rw [mem_btreeInsert]; exact or_comm

theorem cpuItem_inj {s : Str} {P Q : Nat → Prop} (hP : CpuItem s P) (hQ : CpuItem s Q) : P = Q := by
  cases hP with
  | one h =>
    cases hQ with
    | one h' => rw [h.inj h']
    | range h1 h2 => exact absurd (by simp) (uint_no_char h (c := '-') (by decide) (by decide))
  | @range a b m n h1 h2 =>
    generalize hs : a ++ "-".toList ++ b = s at hQ
    cases hQ with
    | one h => subst hs; exact absurd (by simp) (uint_no_char h (c := '-') (by decide) (by decide))
    | @range a' b' _ _ h1' h2' =>
      have h3 : splitOnce '-' (a ++ "-".toList ++ b) = some (a, b) :=
        splitOnce_eq_some.2 ⟨by simp, uint_no_char h1 (by decide) (by decide)⟩
      have h4 : splitOnce '-' (a ++ "-".toList ++ b) = some (a', b') :=
        splitOnce_eq_some.2 ⟨by rw [hs]; simp, uint_no_char h1' (by decide) (by decide)⟩
      rw [h3] at h4; cases h4
      rw [h1.inj h1', h2.inj h2']

theorem parseItem_some {inner : List Nat} {s : Str} {P : Nat → Prop} (h : CpuItem s P) :
    ∃ r, CpuSet.parseItem inner s = .ok r := by
  unfold CpuSet.parseItem
  cases h with
  | one h =>
    rw [splitOnce_eq_none.2 (uint_no_char h (by decide) (by decide))]
    simp only [(parseCpu_iff _ _).2 h]
    exact ⟨_, rfl⟩
  | @range a b m n h1 h2 =>
    rw [(splitOnce_eq_some (a := a) (b := b)).2 ⟨by simp, uint_no_char h1 (by decide) (by decide)⟩]
    simp only [(parseCpu_iff _ _).2 h1, (parseCpu_iff _ _).2 h2]
    exact ⟨_, rfl⟩

theorem parseLoop_iff (inner r : List Nat) (items : List Str) (hin : Increasing inner) :
    CpuSet.parseLoop inner items = .ok r ↔
      (∀ i ∈ items, ∃ P, CpuItem i P) ∧ Increasing r ∧
        ∀ x, x ∈ r ↔ x ∈ inner ∨ ∃ i ∈ items, ∃ P, CpuItem i P ∧ P x := by
  induction items generalizing inner with
  | nil =>
    simp only [CpuSet.parseLoop, Except.ok.injEq, List.not_mem_nil, false_implies, implies_true, true_and, false_and,
      exists_false, or_false]
    constructor
    · rintro rfl; exact ⟨hin, fun x => Iff.rfl⟩
    · rintro ⟨h1, h2⟩; exact increasing_ext hin h1 fun x => (h2 x).symm
  | cons i is ih =>
    simp only [CpuSet.parseLoop]
    match h : CpuSet.parseItem inner i with
    | .error e =>
      simp only [reduceCtorEq, false_iff]
      rintro ⟨h1, -⟩
      obtain ⟨P, hP⟩ := h1 i (by simp)
      obtain ⟨r, hr⟩ := parseItem_some (inner := inner) hP
      rw [h] at hr; cases hr
    | .ok inner' =>
      simp only
      obtain ⟨P, hP, hin', hmem⟩ := parseItem_ok hin h
      rw [ih inner' hin']
      simp only [List.forall_mem_cons, hmem, exists_mem_cons']
      have : (∃ Q, CpuItem i Q ∧ Q = P) ↔ True := by simp [hP]
      have hx : ∀ x, (∃ Q, CpuItem i Q ∧ Q x) ↔ P x := fun x =>
        ⟨fun ⟨Q, hQ, hx⟩ => cpuItem_inj hQ hP ▸ hx, fun hx => ⟨P, hP, hx⟩⟩
      simp only [hx, or_assoc]
      exact ⟨fun ⟨h1, h2⟩ => ⟨⟨⟨P, hP⟩, h1⟩, h2⟩, fun ⟨⟨_, h1⟩, h2⟩ => ⟨h1, h2⟩⟩

theorem splitTerminator_iff {s : Str} {items : List Str} (h : ∀ i ∈ items, i ≠ [] ∧ ',' ∉ i) :
    splitTerminator ',' s = items ↔ CpuList s items := by
  unfold splitTerminator
  simp only
  constructor
  · intro hs
    split at hs
    · rename_i hl
      obtain ⟨ps, hps⟩ := List.getLast?_eq_some_iff.1 hl
      rw [hps] at hs
      simp only [List.dropLast_concat] at hs
      subst hs
      have hj := joinWith_split ',' s
      rw [hps] at hj
      cases ps with
      | nil => simp [joinWith] at hj; subst hj; exact .empty
      | cons p ps =>
        rw [joinWith_append _ _ _ (by simp) (by simp)] at hj
        rw [← hj]
        have := CpuList.trailing (i := p) (is := ps)
        rw [show ",".toList = [','] from rfl, intercalate_eq] at this
        simpa [joinWith] using this
    · rename_i hl
      cases items with
      | nil => exact absurd hs (split_ne_nil _ _)
      | cons i is =>
        have hj := joinWith_split ',' s
        rw [hs] at hj
        rw [← hj, ← intercalate_eq]
        exact .plain
  · intro hs
    cases hs with
    | empty => rfl
    | @plain i is =>
      rw [show ",".toList = [','] from rfl, intercalate_eq, split_joinWith (by simp) (fun p hp => (h p hp).2)]
      rw [if_neg]
      intro hl
      exact (h [] (List.mem_of_getLast? hl)).1 rfl
    | @trailing i is =>
      have : joinWith ',' (i :: is) ++ [','] = joinWith ',' ((i :: is) ++ [[]]) := by
        rw [joinWith_append _ _ _ (by simp) (by simp)]; rfl
      rw [show ",".toList = [','] from rfl, intercalate_eq, this, split_joinWith (by simp)]
      · rw [if_pos List.getLast?_concat, List.dropLast_concat]
      · intro p hp
        rcases List.mem_append.1 hp with hp | hp
        · exact (h p hp).2
        · simp at hp; simp [hp]

theorem cpuItem_text {i : Str} {P : Nat → Prop} (h : CpuItem i P) : i ≠ [] ∧ ',' ∉ i := by
  cases h with
  | one h => exact ⟨h.ne_nil, uint_no_char h (by decide) (by decide)⟩
  | range h1 h2 =>
    refine ⟨by simp, ?_⟩
    have := uint_no_char h1 (c := ',') (by decide) (by decide)
    have := uint_no_char h2 (c := ',') (by decide) (by decide)
    simp_all

/-- C48: a text is accepted exactly if it is a comma separated list of numbers and ranges, and the result is exactly
the set of the listed CPUs. -/
theorem C48_cpuset_accepts (s : Str) (r : List Nat) :
    CpuSet.fromStr s = .ok r ↔
      ∃ items, CpuList s items ∧ (∀ i ∈ items, ∃ P, CpuItem i P) ∧
        Increasing r ∧ ∀ x, x ∈ r ↔ ∃ i ∈ items, ∃ P, CpuItem i P ∧ P x := by
  unfold CpuSet.fromStr
  rw [parseLoop_iff _ _ _ List.Pairwise.nil]
  simp only [List.not_mem_nil, false_or]
  constructor
  · rintro ⟨h1, h2⟩
    refine ⟨_, (splitTerminator_iff fun i hi => ?_).1 rfl, h1, h2⟩
    obtain ⟨P, hP⟩ := h1 i hi
    exact cpuItem_text hP
  · rintro ⟨items, hs, h1, h2⟩
    have : splitTerminator ',' s = items := (splitTerminator_iff fun i hi => by
      obtain ⟨P, hP⟩ := h1 i hi
      exact cpuItem_text hP).2 hs
    rw [this]; exact ⟨h1, h2⟩

example : ∃ items, CpuList "0-1,5,".toList items ∧ (∀ i ∈ items, ∃ P, CpuItem i P) ∧
    Increasing [0, 1, 5] ∧ ∀ x, x ∈ [0, 1, 5] ↔ ∃ i ∈ items, ∃ P, CpuItem i P ∧ P x := (C48_cpuset_accepts _ _).1 rfl

theorem writeRange_eq (first : Bool) (s e : Nat) :
    writeRange first s e = (if first then [] else [',']) ++ runText (s, e) := by
  unfold writeRange runText showNat
  by_cases h : s = e <;> simp [h]

theorem displayLoop_runs (out : Str) (first : Bool) (start last : Nat) (iter : List Nat) (hle : start ≤ last)
    (hinc : Increasing (last :: iter)) (hmax : ∀ x ∈ last :: iter, x ≤ u64Max) :
    ∃ e more, CpuSet.displayLoop out first start last iter =
        some (out ++ (if first then [] else [',']) ++ joinWith ',' (((start, e) :: more).map runText)) ∧
      MaximalRuns ((start, e) :: more) ∧
      ∀ x, (∃ r ∈ (start, e) :: more, r.1 ≤ x ∧ x ≤ r.2) ↔ (start ≤ x ∧ x ≤ last) ∨ x ∈ iter := by
  have hw := writeRange_eq first
  induction iter generalizing out first start last with
  | nil =>
    refine ⟨last, [], ?_, ⟨by simpa, List.isChain_singleton _⟩, by simp⟩
    simp [CpuSet.displayLoop, hw, joinWith]
  | cons cpu iter ih =>
    have h1 : last < cpu := (List.pairwise_cons.1 hinc).1 cpu (by simp)
    have hinc' : Increasing (cpu :: iter) := (List.pairwise_cons.1 hinc).2
    have hcpu : cpu ≤ u64Max := hmax cpu (by simp)
    have hmax' : ∀ x ∈ cpu :: iter, x ≤ u64Max := fun x hx => hmax x (List.mem_cons_of_mem _ hx)
    unfold CpuSet.displayLoop
    rw [if_neg (by omega)]
    split
    · rename_i hc
      obtain ⟨e, more, h2, h3, h4⟩ := ih out first start cpu (by omega) hinc' hmax' (writeRange_eq first)
      refine ⟨e, more, h2, h3, fun x => ?_⟩
      rw [h4, List.mem_cons]
      constructor
      · rintro (h | h)
        · rcases Nat.lt_or_ge last x with hx | hx
          · right; left; omega
          · left; omega
        · right; right; exact h
      · rintro (h | h | h)
        · left; omega
        · left; omega
        · right; exact h
    · rename_i hc
      obtain ⟨e, more, h2, h3, h4⟩ := ih (out ++ writeRange first start last) false cpu cpu (by omega) hinc' hmax'
        (writeRange_eq false)
      refine ⟨last, (cpu, e) :: more, ?_, ⟨?_, ?_⟩, fun x => ?_⟩
      · rw [h2, hw]; simp [joinWith]
      · intro r hr
        rcases List.mem_cons.1 hr with rfl | hr
        · exact hle
        · exact h3.1 r hr
      · exact List.isChain_cons_cons.2 ⟨by simp; omega, h3.2⟩
      · rw [exists_mem_cons', h4, List.mem_cons]
        constructor
        · rintro (h | h | h)
          · left; exact h
          · right; left; omega
          · right; right; exact h
        · rintro (h | h | h)
          · left; exact h
          · right; left; omega
          · right; right; exact h

/-- C48: a CPU set prints, without panic, as the comma separated list of its maximal runs, in order. -/
theorem C48_cpuset_display (s : List Nat) (hs : Increasing s) (hmax : ∀ x ∈ s, x ≤ u64Max) :
    ∃ runs, CpuSet.display s = some (List.intercalate ",".toList (runs.map runText)) ∧ MaximalRuns runs ∧
      ∀ x, x ∈ s ↔ ∃ r ∈ runs, r.1 ≤ x ∧ x ≤ r.2 := by
  rw [show ",".toList = [','] from rfl]
  cases s with
  | nil => exact ⟨[], rfl, ⟨by simp, .nil⟩, by simp⟩
  | cons cpu iter =>
    obtain ⟨e, more, h1, h2, h3⟩ := displayLoop_runs [] true cpu cpu iter (Nat.le_refl _) hs hmax
    refine ⟨(cpu, e) :: more, ?_, h2, fun x => ?_⟩
    · rw [intercalate_eq]; simpa [CpuSet.display] using h1
    · rw [h3, List.mem_cons]
      constructor
      · rintro (h | h)
        · left; omega
        · right; exact h
      · rintro (h | h)
        · left; omega
        · right; exact h

example : ∃ runs, CpuSet.display [0, 1, 5] = some (List.intercalate ",".toList (runs.map runText)) ∧ MaximalRuns runs ∧
    ∀ x, x ∈ [0, 1, 5] ↔ ∃ r ∈ runs, r.1 ≤ x ∧ x ≤ r.2 := C48_cpuset_display _ (by unfold Increasing; decide) (by decide)

theorem runText_item (r : Nat × Nat) (h1 : r.1 ≤ u64Max) (h2 : r.2 ≤ u64Max) :
    ∃ P, CpuItem (runText r) P ∧ ∀ x, P x ↔ r.1 ≤ x ∧ x ≤ r.2 := by
  unfold runText
  split
  · rename_i h
    exact ⟨_, .one (uint_showNat h1), fun x => by omega⟩
  · exact ⟨_, .range (uint_showNat h1) (uint_showNat h2), fun x => Iff.rfl⟩

/-- C48: a CPU set prints, without panic, to text that parses back to the same set. -/
theorem C48_cpuset_round_trip (s : List Nat) (hs : Increasing s) (hmax : ∀ x ∈ s, x ≤ u64Max) :
    ∃ text, CpuSet.display s = some text ∧ CpuSet.fromStr text = .ok s := by
  obtain ⟨runs, h1, ⟨h2, -⟩, h3⟩ := C48_cpuset_display s hs hmax
  refine ⟨_, h1, ?_⟩
  have hb : ∀ r ∈ runs, r.1 ≤ u64Max ∧ r.2 ≤ u64Max := fun r hr => by
    have hr' := h2 r hr
    exact ⟨hmax _ ((h3 _).2 ⟨r, hr, Nat.le_refl _, hr'⟩), hmax _ ((h3 _).2 ⟨r, hr, hr', Nat.le_refl _⟩)⟩
  rw [C48_cpuset_accepts]
  refine ⟨runs.map runText, ?_, ?_, hs, fun x => ?_⟩
  · cases runs with
    | nil => exact .empty
    | cons r rs => exact .plain
  · intro i hi
    obtain ⟨r, hr, rfl⟩ := List.mem_map.1 hi
    obtain ⟨P, hP, -⟩ := runText_item r (hb r hr).1 (hb r hr).2
    exact ⟨P, hP⟩
  · rw [h3]
    constructor
    · rintro ⟨r, hr, hx⟩
      obtain ⟨P, hP, hP'⟩ := runText_item r (hb r hr).1 (hb r hr).2
      exact ⟨_, List.mem_map.2 ⟨r, hr, rfl⟩, P, hP, (hP' x).2 hx⟩
    · rintro ⟨i, hi, Q, hQ, hx⟩
      obtain ⟨r, hr, rfl⟩ := List.mem_map.1 hi
      obtain ⟨P, hP, hP'⟩ := runText_item r (hb r hr).1 (hb r hr).2
      exact ⟨r, hr, (hP' x).1 (cpuItem_inj hQ hP ▸ hx)⟩

example : CpuSet.fromStr "0-3,5,7-9,".toList = .ok [0, 1, 2, 3, 5, 7, 8, 9] := by rfl
example : CpuSet.fromStr "5,3-1,2".toList = .ok [2, 5] := by rfl
example : CpuSet.fromStr "1,,2".toList = .error ⟨[], .empty⟩ := by rfl
example : CpuSet.display [0, 1, 2, 3, 5, 7, 8, 9] = some "0-3,5,7-9".toList := by decide
example : CpuSet.display [18446744073709551614, 18446744073709551615] =
    some "18446744073709551614-18446744073709551615".toList := by decide
example : Increasing [0, 1, 5, u64Max] ∧ ∀ x ∈ [0, 1, 5, u64Max], x ≤ u64Max := by
  constructor
  · unfold Increasing; decide
  · decide

end Props
