import Verif.Spec.Derive
import Mathlib.Data.List.Nodup

/- Proofs about derived structs, for every table of fields. -/

namespace Proofs
open Rust Compose Compose.Derive Spec

/-- The keys of the fields that are not flattened. -/
def fieldKeys : List Item → List Str
  | [] => []
  | .field f :: is => f.key :: fieldKeys is
  | .flat _ :: is => fieldKeys is

/-- The keys listed by flattened fields. -/
def flatKeys : List Item → List Str
  | [] => []
  | .field _ :: is => flatKeys is
  | .flat f :: is => f.keys.getD [] ++ flatKeys is

theorem mem_ownKeys {k : Str} {is : List Item} : k ∈ ownKeys is ↔ k ∈ fieldKeys is ∨ k ∈ flatKeys is := by
  induction is with
  | nil => simp [ownKeys, fieldKeys, flatKeys]
  | cons i is ih => cases i <;> simp [ownKeys, fieldKeys, flatKeys, ih] <;> tauto

theorem fieldKeys_nodup {is : List Item} (h : (ownKeys is).Nodup) : (fieldKeys is).Nodup := by
  induction is with
  | nil => simp [fieldKeys]
  | cons i is ih =>
    cases i with
    | field f =>
      simp only [ownKeys, List.nodup_cons, fieldKeys] at h ⊢
      exact ⟨fun hm => h.1 (mem_ownKeys.2 (.inl hm)), ih h.2⟩
    | flat f =>
      simp only [ownKeys, List.nodup_append, fieldKeys] at h ⊢
      exact ih h.2.1

/-- What the loop does to the variables. -/
def Filled (es : List (Str × Content)) : (is : List Item) → Slots is → Slots is → Prop
  | [], _, _ => True
  | .field f :: is, (s, ss), (s', ss') =>
    ((s = none ∧ ∃ v x, given es f.key = [v] ∧ f.codec.de v = .ok x ∧ s' = some x) ∨ (given es f.key = [] ∧ s' = s)) ∧
      Filled es is ss ss'
  | .flat _ :: is, ss, ss' => Filled es is ss ss'

theorem given_cons (k : Str) (v : Content) (es : List (Str × Content)) (k' : Str) :
    given ((k, v) :: es) k' = if k = k' then v :: given es k' else given es k' := by
  unfold given
  rw [List.filter_cons]
  by_cases h : k = k' <;> simp [h]

theorem put_none (is : List Item) (k : Str) (v : Content) (ss : Slots is) : put is k v ss = none ↔ k ∉ fieldKeys is := by
  induction is with
  | nil => simp [put, fieldKeys]
  | cons i is ih =>
    cases i with
    | field f =>
      obtain ⟨s, ss⟩ := ss
      rw [put]
      by_cases h : k = f.key
      · rw [if_pos h]; simp [fieldKeys, h]
      · rw [if_neg h]; simp [fieldKeys, h, ih]
    | flat f =>
      have e : put (.flat f :: is) k v ss = put is k v ss := rfl
      rw [e]; exact ih ss

theorem filled_other {k : Str} {v : Content} {es : List (Str × Content)} {is : List Item} (h : k ∉ fieldKeys is)
    (ss ss' : Slots is) : Filled ((k, v) :: es) is ss ss' ↔ Filled es is ss ss' := by
  induction is with
  | nil => exact Iff.rfl
  | cons i is ih =>
    cases i with
    | field f =>
      obtain ⟨s, ss⟩ := ss
      obtain ⟨s', ss'⟩ := ss'
      simp only [fieldKeys, List.mem_cons, not_or] at h
      simp only [Filled, given_cons, if_neg h.1, ih h.2]
    | flat f => exact ih h ss ss'

theorem put_some {is : List Item} (hn : (fieldKeys is).Nodup) {k : Str} {v : Content} {ss : Slots is}
    {o : Outcome Unit (Slots is)} (h : put is k v ss = some o) (es : List (Str × Content)) (ss' : Slots is) :
    Filled ((k, v) :: es) is ss ss' ↔ ∃ ss₁, o = .ok ss₁ ∧ Filled es is ss₁ ss' := by
  induction is with
  | nil => simp [put] at h
  | cons i is ih =>
    cases i with
    | field f =>
      obtain ⟨s, ss⟩ := ss
      obtain ⟨s', ss'⟩ := ss'
      simp only [fieldKeys, List.nodup_cons] at hn
      rw [put] at h
      by_cases hk : k = f.key
      · rw [if_pos hk] at h
        have hk' : k ∉ fieldKeys is := hk ▸ hn.1
        simp only [Filled, given_cons, if_pos hk, filled_other hk']
        obtain rfl := Option.some.inj h
        constructor
        · rintro ⟨⟨rfl, v', x, h1, h2, rfl⟩ | ⟨h1, _⟩, h3⟩
          · simp only [List.cons.injEq] at h1
            obtain ⟨rfl, h1⟩ := h1
            refine ⟨(some x, ss), by rw [h2]; rfl, ?_⟩
            exact ⟨.inr ⟨h1, rfl⟩, h3⟩
          · simp at h1
        · rintro ⟨⟨s₁, ss₁⟩, h1, h2⟩
          cases s with
          | some x => exact nomatch (show Outcome.err () = Outcome.ok _ from h1)
          | none =>
            obtain ⟨x, h3, h4⟩ := Outcome.map_eq_ok.1 (show Outcome.map _ (f.codec.de v) = .ok _ from h1)
            obtain ⟨rfl, rfl⟩ := Prod.mk.inj h4
            obtain ⟨⟨h5, _⟩ | ⟨h5, rfl⟩, h6⟩ := h2
            · simp at h5
            · exact ⟨.inl ⟨rfl, v, x, by rw [h5], h3, rfl⟩, h6⟩
      · rw [if_neg hk, Option.map_eq_some_iff] at h
        obtain ⟨o', h1, rfl⟩ := h
        simp only [Filled, given_cons, if_neg hk, ih hn.2 h1]
        constructor
        · rintro ⟨h2, ss₁, h3, h4⟩
          exact ⟨(s, ss₁), by rw [h3]; rfl, h2, h4⟩
        · rintro ⟨⟨s₁, ss₁⟩, h3, h4⟩
          obtain ⟨ss₂, h5, h6⟩ := Outcome.map_eq_ok.1 h3
          obtain ⟨rfl, rfl⟩ := Prod.mk.inj h6
          exact ⟨h4.1, ss₂, h5, h4.2⟩
    | flat f =>
      simp only [fieldKeys] at hn
      exact ih hn (ss := ss) (o := o) h ss'

theorem filled_nil (is : List Item) (ss ss' : Slots is) : Filled [] is ss ss' ↔ ss' = ss := by
  induction is with
  | nil => simp [Filled]; rfl
  | cons i is ih =>
    cases i with
    | field f =>
      obtain ⟨s, ss⟩ := ss
      obtain ⟨s', ss'⟩ := ss'
      have e : given [] f.key = [] := rfl
      simp only [Filled, e, ih]
      constructor
      · rintro ⟨⟨_, _, _, h, _⟩ | ⟨_, rfl⟩, rfl⟩
        · simp at h
        · rfl
      · intro h
        obtain ⟨rfl, rfl⟩ := Prod.mk.inj h
        exact ⟨.inr ⟨trivial, rfl⟩, rfl⟩
    | flat f => exact ih ss ss'

theorem loop_ok {is : List Item} (hn : (fieldKeys is).Nodup) (ss ss' : Slots is) (rest rest' es : List (Str × Content)) :
    loop is ss rest es = .ok (ss', rest') ↔
      Filled es is ss ss' ∧ rest' = rest ++ es.filter fun e => e.1 ∉ fieldKeys is := by
  induction es generalizing ss rest with
  | nil =>
    rw [filled_nil]
    simp only [loop, Outcome.ok.injEq, Prod.mk.injEq, List.filter_nil, List.append_nil]
    exact and_congr eq_comm eq_comm
  | cons e es ih =>
    obtain ⟨k, v⟩ := e
    rw [loop]
    cases hp : put is k v ss with
    | none =>
      have hk := (put_none is k v ss).1 hp
      simp only [ih, filled_other hk]
      rw [List.filter_cons, if_pos (by simpa using hk)]
      simp
    | some o =>
      have hk : k ∈ fieldKeys is := by
        by_contra h
        rw [(put_none is k v ss).2 h] at hp; simp at hp
      rw [List.filter_cons, if_neg (by simpa using hk)]
      have h1 := put_some hn hp es ss'
      rw [h1]
      cases o with
      | ok ss₁ => simp [ih]
      | err e => simp
      | panic => simp

theorem filter_filter_eq {es : List (Str × Content)} {p q r : Str → Prop} [DecidablePred p] [DecidablePred q]
    [DecidablePred r] (h : ∀ k, r k ↔ p k ∧ q k) :
    (es.filter fun e => q e.1).filter (fun e => p e.1) = es.filter fun e => r e.1 := by
  rw [List.filter_filter]
  congr 1
  funext e
  simp [h]

theorem map_pair {A B : Type} {o : Outcome Unit B} {y x : A} {r : B} :
    (o.map fun r => (y, r)) = .ok (x, r) ↔ y = x ∧ o = .ok r := by
  cases o <;> simp [Outcome.map]

theorem bind_map_pair {A B : Type} {a : Outcome Unit A} {o : Outcome Unit B} {x : A} {r : B} :
    (a.bind fun y => o.map fun r => (y, r)) = .ok (x, r) ↔ a = .ok x ∧ o = .ok r := by
  cases a <;> cases o <;> simp [Outcome.map, Outcome.bind]

theorem build_ok {own : List Str} {es : List (Str × Content)} {is : List Item} {gone : List Str} {ss : Slots is}
    {rest : List (Str × Content)} (hr : rest = es.filter fun e => e.1 ∉ gone)
    (hf : Filled es is (Slots.empty is) ss) (hd : ∀ k ∈ flatKeys is, k ∉ gone) (hn : (flatKeys is).Nodup)
    (ho : ∀ k, k ∈ own ↔ k ∈ gone ∨ k ∈ flatKeys is) (hl : restLast is = true) (r : Record is) :
    (present is ss = true ∧ build is ss rest = .ok r) ↔ StandsFor own es is r := by
  induction is generalizing gone rest with
  | nil =>
    simp only [present, StandsFor, build]
    exact ⟨fun _ => trivial, fun _ => ⟨trivial, rfl⟩⟩
  | cons i is ih =>
    cases i with
    | field f =>
      obtain ⟨s, ss⟩ := ss
      obtain ⟨x, r⟩ := r
      simp only [Filled, Slots.empty] at hf
      have h1 := ih hr hf.2 hd hn ho hl r
      simp only [StandsFor, present, build, ← h1]
      obtain ⟨_, v, y, h2, h3, rfl⟩ | ⟨h2, rfl⟩ := hf.1
      · simp only [h2, Option.isSome_some, Bool.true_or, Bool.true_and, Option.some_or]
        constructor
        · rintro ⟨h4, h5⟩
          obtain ⟨rfl, h6⟩ := map_pair.1 h5
          exact ⟨.inl ⟨v, rfl, h3⟩, h4, h6⟩
        · rintro ⟨⟨v', h6, h7⟩ | ⟨h6, _⟩, h4, h5⟩
          · obtain rfl : v = v' := by simpa using h6
            rw [h3] at h7
            obtain rfl := Outcome.ok.inj h7
            exact ⟨h4, map_pair.2 ⟨rfl, h5⟩⟩
          · simp at h6
      · simp only [h2, Option.isSome_none, Bool.false_or, Option.none_or]
        cases hdef : f.default with
        | none => simp
        | some y =>
          simp only [Option.isSome_some, Bool.true_and]
          constructor
          · rintro ⟨h4, h5⟩
            obtain ⟨rfl, h6⟩ := map_pair.1 h5
            exact ⟨.inr ⟨trivial, rfl⟩, h4, h6⟩
          · rintro ⟨⟨v', h6, h7⟩ | ⟨_, h6⟩, h4, h5⟩
            · simp at h6
            · exact ⟨h4, map_pair.2 ⟨Option.some.inj h6, h5⟩⟩
    | flat f =>
      obtain ⟨x, r⟩ := r
      have hf' : Filled es is (Slots.empty is) ss := hf
      simp only [StandsFor, present, build, entriesFor]
      simp only [restLast, Bool.and_eq_true] at hl
      cases hk : f.keys with
      | none =>
        have hflat : flatKeys is = [] := by
          have : noFlat is = true := by simpa [hk] using hl.1
          clear ih hl hn hd hf ho hf'
          induction is with
          | nil => rfl
          | cons i is ih2 =>
            cases i with
            | field g => exact ih2 (ss := ss.2) r.2 (by simpa [noFlat] using this)
            | flat g => simp [noFlat] at this
        simp only [flatKeys, hk, Option.getD_none, List.nil_append, hflat] at hd hn ho
        have h1 := ih (gone := gone) (rest := rest) hr hf' (by simp [hflat]) (by simp [hflat]) (by simpa [hflat] using ho) hl.2 r
        rw [← h1]
        have h2 : rest = es.filter fun e => e.1 ∉ own := by
          rw [hr]; congr 1; funext e; simp [ho]
        constructor
        · rintro ⟨h3, h4⟩
          obtain ⟨h5, h6⟩ := bind_map_pair.1 h4
          exact ⟨h2 ▸ h5, h3, h6⟩
        · rintro ⟨h4, h3, h5⟩
          exact ⟨h3, bind_map_pair.2 ⟨by rw [h2]; exact h4, h5⟩⟩
      | some ks =>
        simp only [flatKeys, hk, Option.getD_some, List.nodup_append, List.mem_append] at hd hn ho
        have h2 : rest.filter (fun e => e.1 ∈ ks) = es.filter fun e => e.1 ∈ ks := by
          rw [hr]
          exact filter_filter_eq (p := (· ∈ ks)) (q := (· ∉ gone)) (r := (· ∈ ks))
            (fun k => ⟨fun h => ⟨h, hd k (.inl h)⟩, fun h => h.1⟩)
        have h3 : rest.filter (fun e => e.1 ∉ ks) = es.filter fun e => e.1 ∉ gone ++ ks := by
          rw [hr]
          exact filter_filter_eq (p := (· ∉ ks)) (q := (· ∉ gone)) (r := (· ∉ gone ++ ks)) (fun k => by simp [and_comm])
        have h1 := ih (gone := gone ++ ks) h3 hf'
          (fun k hm => by
            simp only [List.mem_append, not_or]
            exact ⟨hd k (.inr hm), fun h => hn.2.2 k h k hm rfl⟩)
          hn.2.1 (fun k => by rw [ho]; simp [or_assoc]) hl.2 r
        rw [← h1]
        simp only [h2]
        constructor
        · rintro ⟨h3, h4⟩
          obtain ⟨h5, h6⟩ := bind_map_pair.1 h4
          exact ⟨h5, h3, h6⟩
        · rintro ⟨h4, h3, h5⟩
          exact ⟨h3, bind_map_pair.2 ⟨h4, h5⟩⟩

theorem flatKeys_nodup {is : List Item} (h : (ownKeys is).Nodup) :
    (flatKeys is).Nodup ∧ ∀ k ∈ flatKeys is, k ∉ fieldKeys is := by
  induction is with
  | nil => simp [flatKeys]
  | cons i is ih =>
    cases i with
    | field f =>
      simp only [ownKeys, List.nodup_cons, fieldKeys, flatKeys] at h ⊢
      obtain ⟨h1, h2⟩ := ih h.2
      refine ⟨h1, fun k hk => ?_⟩
      simp only [List.mem_cons, not_or]
      exact ⟨fun e => h.1 (mem_ownKeys.2 (.inr (e ▸ hk))), h2 k hk⟩
    | flat f =>
      simp only [ownKeys, List.nodup_append, fieldKeys, flatKeys] at h ⊢
      obtain ⟨h1, h2⟩ := ih h.2.1
      refine ⟨⟨h.1, h1, fun a ha b hb => h.2.2 a ha b (mem_ownKeys.2 (.inr hb))⟩, fun k hk => ?_⟩
      rcases List.mem_append.1 hk with hk | hk
      · exact fun hm => h.2.2 k hk k (mem_ownKeys.2 (.inl hm)) rfl
      · exact h2 k hk

/-- A mapping is read as a struct exactly if it stands for it. -/
theorem decode_ok {is : List Item} (ht : GoodFields is) (es : List (Str × Content)) (r : Record is) :
    decode is es = .ok r ↔ StandsFor (ownKeys is) es is r := by
  have hn := fieldKeys_nodup ht.distinct
  obtain ⟨h1, h2⟩ := flatKeys_nodup ht.distinct
  unfold decode
  rw [Outcome.bind_eq_ok]
  constructor
  · rintro ⟨⟨ss, rest⟩, h3, h4⟩
    rw [loop_ok hn] at h3
    rw [← build_ok (gone := fieldKeys is) (by simpa using h3.2) h3.1 h2 h1 (fun k => mem_ownKeys) ht.last]
    simp only at h4
    split at h4
    · exact ⟨by assumption, h4⟩
    · simp at h4
  · intro h
    obtain ⟨ss, hss⟩ : ∃ ss, Filled es is (Slots.empty is) ss := by
      clear hn h1 h2 ht
      revert h
      generalize ownKeys is = own
      intro h
      induction is with
      | nil => exact ⟨(), trivial⟩
      | cons i is ih =>
        cases i with
        | field f =>
          obtain ⟨x, r⟩ := r
          obtain ⟨h3, h4⟩ := h
          obtain ⟨ss, h5⟩ := ih r h4
          obtain ⟨v, h6, h7⟩ | ⟨h6, _⟩ := h3
          · exact ⟨(some x, ss), .inl ⟨rfl, v, x, h6, h7, rfl⟩, h5⟩
          · exact ⟨(none, ss), .inr ⟨h6, rfl⟩, h5⟩
        | flat f =>
          obtain ⟨x, r⟩ := r
          exact ih r h.2
    refine ⟨(ss, es.filter fun e => e.1 ∉ fieldKeys is), (loop_ok hn _ _ _ _ _).2 ⟨hss, by simp⟩, ?_⟩
    rw [← build_ok (gone := fieldKeys is) rfl hss h2 h1 (fun k => mem_ownKeys) ht.last] at h
    simp only [h.1, if_true, h.2]

/-! ### Writing -/

/-- The keys of the entries that belong to a field. -/
def Owned (own : List Str) : Item → Str → Prop
  | .field f, k => k = f.key
  | .flat f, k => match f.keys with
    | some ks => k ∈ ks
    | none => k ∉ own

/-- A flattened field writes entries that belong to it. -/
def WritesOwn (own : List Str) : (is : List Item) → Record is → Prop
  | [], _ => True
  | .field _ :: is, (_, r) => WritesOwn own is r
  | .flat f :: is, (x, r) => (∀ e ∈ f.write x, Owned own (.flat f) e.1) ∧ WritesOwn own is r

/-- What is written for the fields of one struct is read as the fields of another. -/
def SurvivesAs : (is : List Item) → Record is → Record is → Prop
  | [], _, _ => True
  | .field f :: is, (x, r), (y, s) =>
    ((f.skip x = true → f.default = some y) ∧ (f.skip x = false → f.codec.de (f.codec.ser x) = .ok y)) ∧ SurvivesAs is r s
  | .flat f :: is, (x, r), (y, s) => f.read (f.write x) = .ok y ∧ SurvivesAs is r s

theorem entriesFor_owned {own : List Str} {f : Flat} {es : List (Str × Content)} :
    entriesFor own f es = es ↔ ∀ e ∈ es, Owned own (.flat f) e.1 := by
  unfold entriesFor Owned
  cases hk : f.keys <;> simp [List.filter_eq_self, hk]

theorem entriesFor_append (own : List Str) (f : Flat) (a b : List (Str × Content)) :
    entriesFor own f (a ++ b) = entriesFor own f a ++ entriesFor own f b := by
  unfold entriesFor
  cases f.keys <;> simp

theorem entriesFor_nil {own : List Str} {f : Flat} {es : List (Str × Content)}
    (h : ∀ e ∈ es, ¬ Owned own (.flat f) e.1) : entriesFor own f es = [] := by
  unfold entriesFor Owned at *
  cases hk : f.keys
  · simp only [hk, not_not] at h
    simpa [List.filter_eq_nil_iff] using fun a b hm => h (a, b) hm
  · simp only [hk] at h
    simpa [List.filter_eq_nil_iff] using fun a b hm => h (a, b) hm

theorem given_append (a b : List (Str × Content)) (k : Str) : given (a ++ b) k = given a k ++ given b k := by
  simp [given]

theorem given_nil {es : List (Str × Content)} {k : Str} (h : ∀ e ∈ es, ¬ e.1 = k) : given es k = [] := by
  simp only [given, List.map_eq_nil_iff, List.filter_eq_nil_iff, decide_eq_true_eq]
  exact h

theorem owned_mem_ownKeys {own : List Str} {is : List Item} {i : Item} (hi : i ∈ is) {k : Str} (h : Owned own i k) :
    k ∈ ownKeys is ∨ ((∃ f, i = .flat f ∧ f.keys = none) ∧ k ∉ own) := by
  induction is with
  | nil => simp at hi
  | cons j is ih =>
    rcases List.mem_cons.1 hi with rfl | hi
    · cases i with
      | field f => exact .inl (by simp [ownKeys, show k = f.key from h])
      | flat f =>
        cases hk : f.keys with
        | some ks =>
          simp only [Owned, hk] at h
          exact .inl (by simp [ownKeys, hk, h])
        | none =>
          simp only [Owned, hk] at h
          exact .inr ⟨⟨f, rfl, hk⟩, h⟩
    · rcases ih hi with h | h
      · refine .inl ?_
        cases j <;> simp [ownKeys, h]
      · exact .inr h

theorem noFlat_mem {is : List Item} (h : noFlat is = true) {f : Flat} : .flat f ∉ is := by
  induction is with
  | nil => simp
  | cons i is ih =>
    cases i with
    | field g => simpa using ih (by simpa [noFlat] using h)
    | flat g => simp [noFlat] at h

theorem owned_disjoint {own : List Str} {i : Item} {is : List Item} (hn : (ownKeys (i :: is)).Nodup)
    (hs : ∀ k ∈ ownKeys (i :: is), k ∈ own) (hl : restLast (i :: is) = true) {k : Str} (h : Owned own i k)
    {j : Item} (hj : j ∈ is) : ¬ Owned own j k := by
  intro h2
  rcases owned_mem_ownKeys hj h2 with h3 | ⟨⟨g, rfl, hg⟩, h3⟩
  · cases i with
    | field f =>
      simp only [ownKeys, List.nodup_cons] at hn
      exact hn.1 ((show k = f.key from h) ▸ h3)
    | flat f =>
      cases hk : f.keys with
      | some ks =>
        simp only [Owned, hk] at h
        simp only [ownKeys, hk, Option.getD_some, List.nodup_append] at hn
        exact hn.2.2 k h k h3 rfl
      | none =>
        simp only [Owned, hk] at h
        exact h (hs k (by simp [ownKeys, h3]))
  · cases i with
    | field f => exact h3 (hs k (by simp [ownKeys, show k = f.key from h]))
    | flat f =>
      cases hk : f.keys with
      | some ks =>
        simp only [Owned, hk] at h
        exact h3 (hs k (by simp [ownKeys, hk, h]))
      | none =>
        simp only [restLast, hk, Option.isSome_none, Bool.false_or, Bool.and_eq_true] at hl
        exact noFlat_mem hl.1 hj

theorem write_owned {own : List Str} {is : List Item} {r : Record is} (h : WritesOwn own is r) :
    ∀ e ∈ write is r, ∃ i ∈ is, Owned own i e.1 := by
  induction is with
  | nil => simp [write]
  | cons i is ih =>
    intro e he
    cases i with
    | field f =>
      obtain ⟨x, r⟩ := r
      simp only [write, List.mem_append] at he
      rcases he with he | he
      · refine ⟨.field f, by simp, ?_⟩
        split at he
        · simp at he
        · simp only [List.mem_singleton] at he
          subst he; rfl
      · obtain ⟨j, hj, h2⟩ := ih (r := r) h e he
        exact ⟨j, by simp [hj], h2⟩
    | flat f =>
      obtain ⟨x, r⟩ := r
      simp only [write, List.mem_append] at he
      rcases he with he | he
      · exact ⟨.flat f, by simp, h.1 e he⟩
      · obtain ⟨j, hj, h2⟩ := ih (r := r) h.2 e he
        exact ⟨j, by simp [hj], h2⟩

theorem standsFor_write {own : List Str} {is : List Item} (hn : (ownKeys is).Nodup) (hs : ∀ k ∈ ownKeys is, k ∈ own)
    (hl : restLast is = true) {r : Record is} (r' : Record is) (hw : WritesOwn own is r) (pre : List (Str × Content))
    (hp : ∀ e ∈ pre, ∀ i ∈ is, ¬ Owned own i e.1) : StandsFor own (pre ++ write is r) is r' ↔ SurvivesAs is r r' := by
  induction is generalizing pre with
  | nil => simp [StandsFor, SurvivesAs]
  | cons i is ih =>
    cases i with
    | field f =>
      obtain ⟨x, r⟩ := r
      obtain ⟨y, r'⟩ := r'
      have hd := @owned_disjoint own (.field f) is hn hs hl
      have hw' : WritesOwn own is r := hw
      have h1 : given (pre ++ write (.field f :: is) (x, r)) f.key = if f.skip x then [] else [f.codec.ser x] := by
        rw [given_append, given_nil (fun e he => hp e he (.field f) (by simp)), write, given_append,
          given_nil (es := write is r)]
        · split <;> simp [given]
        · intro e he h2
          obtain ⟨j, hj, h3⟩ := write_owned hw' e he
          exact hd (k := e.1) h2 hj h3
      have h2 := ih (List.nodup_cons.1 hn).2 (fun k hk => hs k (by simp [ownKeys, hk])) (by simpa [restLast] using hl) r' hw'
        (pre ++ if f.skip x then [] else [(f.key, f.codec.ser x)]) (by
          intro e he j hj
          rcases List.mem_append.1 he with he | he
          · exact hp e he j (by simp [hj])
          · split at he
            · simp at he
            · simp only [List.mem_singleton] at he
              subst he
              exact hd (k := f.key) rfl hj)
      have h3 : write (.field f :: is) (x, r) = (if f.skip x then [] else [(f.key, f.codec.ser x)]) ++ write is r := rfl
      rw [StandsFor, h1, h3, ← List.append_assoc, h2, SurvivesAs]
      refine and_congr_left fun _ => ?_
      cases f.skip x <;> simp [eq_comm]
    | flat f =>
      obtain ⟨x, r⟩ := r
      obtain ⟨y, r'⟩ := r'
      have hd := @owned_disjoint own (.flat f) is hn hs hl
      obtain ⟨hw1, hw2⟩ := hw
      have h1 : entriesFor own f (pre ++ write (.flat f :: is) (x, r)) = f.write x := by
        rw [entriesFor_append, entriesFor_nil (fun e he => hp e he (.flat f) (by simp)), write, entriesFor_append,
          entriesFor_owned.2 hw1, entriesFor_nil (es := write is r)]
        · simp
        · intro e he h2
          obtain ⟨j, hj, h3⟩ := write_owned hw2 e he
          exact hd (k := e.1) h2 hj h3
      have h2 := ih (List.nodup_append.1 hn).2.1 (fun k hk => hs k (by simp [ownKeys, hk]))
        (by simp only [restLast, Bool.and_eq_true] at hl; exact hl.2) r' hw2 (pre ++ f.write x) (by
          intro e he j hj
          rcases List.mem_append.1 he with he | he
          · exact hp e he j (by simp [hj])
          · exact hd (hw1 e he) hj)
      have h3 : write (.flat f :: is) (x, r) = f.write x ++ write is r := rfl
      rw [StandsFor, h1, h3, ← List.append_assoc, h2, SurvivesAs]

/-- A struct is read back from what is written for it exactly if this holds for every field. -/
theorem decode_write {is : List Item} (ht : GoodFields is) {r : Record is} (r' : Record is) (hw : WritesOwn (ownKeys is) is r) :
    decode is (write is r) = .ok r' ↔ SurvivesAs is r r' := by
  rw [decode_ok ht]
  exact standsFor_write ht.distinct (fun _ h => h) ht.last r' hw [] (by simp)

theorem stringKeys_mapping (es : List (Str × Content)) : stringKeys (es.map fun e => (.str e.1, e.2)) = some es := by
  induction es with
  | nil => rfl
  | cons e es ih => simp [stringKeys, ih]

@[simp] theorem entriesOf_mapping (es : List (Str × Content)) : entriesOf (Derive.mapping es) = some es := stringKeys_mapping es

theorem struct_de_mapping (is : List Item) (es : List (Str × Content)) :
    (struct is).de (Derive.mapping es) = decode is es := by
  show (Outcome.ofOption (entriesOf (Derive.mapping es))).bind (decode is) = _
  rw [entriesOf_mapping]
  rfl

theorem all_fields {is : List Item} (h : noFlat is = true) : is.all Item.isField = true := by
  induction is with
  | nil => rfl
  | cons i is ih =>
    cases i with
    | flat f => simp [noFlat] at h
    | field f => exact ih h

theorem noFlat_iff {is : List Item} : is.all Item.isField = true ↔ noFlat is = true := by
  refine ⟨fun h => ?_, all_fields⟩
  induction is with
  | nil => rfl
  | cons i is ih =>
    cases i with
    | flat f => simp [Item.isField] at h
    | field f => exact ih (by simpa [Item.isField] using h)

theorem struct_de_other {is : List Item} {c : Content} (hc : ∀ vs, c ≠ .seq vs) :
    (struct is).de c = (Outcome.ofOption (entriesOf c)).bind (decode is) := by
  cases c with
  | seq vs => exact absurd rfl (hc vs)
  | _ => rfl

/-- A struct with flattened fields is read from the entries of a mapping. -/
theorem struct_de_not_list {is : List Item} (hf : noFlat is = false) (c : Content) :
    (struct is).de c = (Outcome.ofOption (entriesOf c)).bind (decode is) := by
  cases c with
  | seq vs =>
    show (if is.all Item.isField then decodeSeq is vs else .err ()) = .err ()
    rw [if_neg fun h => by rw [noFlat_iff.1 h] at hf; cases hf]
  | _ => rfl

/-- What a mapping stands for depends on the values of the keys of the struct only. -/
theorem standsFor_congr {own : List Str} {is : List Item} (hf : noFlat is = true) {es es' : List (Str × Content)}
    (h : ∀ k ∈ ownKeys is, given es k = given es' k) (r : Record is) : StandsFor own es is r ↔ StandsFor own es' is r := by
  induction is with
  | nil => exact Iff.rfl
  | cons i is ih =>
    cases i with
    | flat f => simp [noFlat] at hf
    | field f =>
      obtain ⟨x, r⟩ := r
      rw [StandsFor, StandsFor, h f.key (by simp [ownKeys]), ih hf (fun k hk => h k (by simp [ownKeys, hk]))]

theorem given_zip_other {k k' : Str} {v : Content} {es : List (Str × Content)} (h : k ≠ k') :
    given ((k, v) :: es) k' = given es k' := by rw [given_cons, if_neg h]

theorem decodeSeq_iff {own : List Str} {is : List Item} (hf : noFlat is = true) (hn : (ownKeys is).Nodup) (vs : List Content)
    (r : Record is) :
    decodeSeq is vs = .ok r ↔ vs.length ≤ (ownKeys is).length ∧ StandsFor own ((ownKeys is).zip vs) is r := by
  induction is generalizing vs with
  | nil => cases vs <;> simp [decodeSeq, StandsFor, ownKeys]; rfl
  | cons i is ih =>
    cases i with
    | flat f => simp [noFlat] at hf
    | field f =>
      obtain ⟨x, r⟩ := r
      have hn' : f.key ∉ ownKeys is ∧ (ownKeys is).Nodup := List.nodup_cons.1 hn
      cases vs with
      | nil =>
        have : decodeSeq (.field f :: is) [] = .ok (x, r) ↔ f.default = some x ∧ decodeSeq is [] = .ok r := by
          rw [decodeSeq]
          cases hd : f.default with
          | none => simp
          | some y =>
            show Outcome.map _ (decodeSeq is []) = _ ↔ _
            cases decodeSeq is [] with
            | ok r' =>
              constructor
              · intro h; cases h; exact ⟨rfl, rfl⟩
              · rintro ⟨h1, h2⟩; cases h1; cases h2; rfl
            | err e => simp [Outcome.map]
            | panic => simp [Outcome.map]
        rw [this, ih hf hn'.2, StandsFor]
        simp [given]
      | cons v vs =>
        have : decodeSeq (.field f :: is) (v :: vs) = .ok (x, r) ↔ f.codec.de v = .ok x ∧ decodeSeq is vs = .ok r := by
          rw [decodeSeq]
          cases f.codec.de v with
          | ok y =>
            show Outcome.map _ (decodeSeq is vs) = _ ↔ _
            cases decodeSeq is vs with
            | ok r' =>
              constructor
              · intro h; cases h; exact ⟨rfl, rfl⟩
              · rintro ⟨h1, h2⟩; cases h1; cases h2; rfl
            | err e => simp [Outcome.map]
            | panic => simp [Outcome.map]
          | err e => simp [Outcome.bind]
          | panic => simp [Outcome.bind]
        have hz : (ownKeys (.field f :: is)).zip (v :: vs) = (f.key, v) :: (ownKeys is).zip vs := rfl
        have hg : given ((ownKeys is).zip vs) f.key = [] := given_nil fun e he h1 => hn'.1 (h1 ▸ (List.of_mem_zip he).1)
        rw [this, ih hf hn'.2, StandsFor, hz, standsFor_congr (own := own) (is := is) hf (es := (f.key, v) :: (ownKeys is).zip vs)
          (es' := (ownKeys is).zip vs) (fun k hk => given_zip_other fun h => hn'.1 (h ▸ hk)), given_cons, if_pos rfl, hg]
        simp [ownKeys]
        tauto

theorem writesOwn_of_lawful {own : List Str} {is : List Item} (h : FieldsLawful own is) {r : Record is}
    (hr : recordValid is r) : WritesOwn own is r := by
  induction is with
  | nil => trivial
  | cons i is ih =>
    cases i with
    | field f => exact ih h.2 hr.2
    | flat f => exact ⟨entriesFor_owned.1 (h.1.keys _ hr.1), ih h.2 hr.2⟩

theorem survives_of_lawful {own : List Str} {is : List Item} (h : FieldsLawful own is) {r : Record is}
    (hr : recordValid is r) : SurvivesAs is r r := by
  induction is with
  | nil => trivial
  | cons i is ih =>
    cases i with
    | field f => exact ⟨⟨h.1.skipped _ hr.1, h.1.kept _ hr.1⟩, ih h.2 hr.2⟩
    | flat f => exact ⟨h.1.read _ hr.1, ih h.2 hr.2⟩

/-- The valid values of a struct survive if those of its fields do. -/
theorem struct_lawful {is : List Item} (ht : GoodFields is) (h : FieldsLawful (ownKeys is) is) : Lawful (struct is) where
  read r hr := by
    have e : (struct is).ser r = Derive.mapping (write is r) := rfl
    rw [e, struct_de_mapping, decode_write ht _ (writesOwn_of_lawful h hr)]
    exact survives_of_lawful h hr

/-! ### Order -/

/-- Reading a flattened field does not depend on the order of the entries. -/
def Stable (f : Flat) : Prop :=
  ∀ es es' x, es.Perm es' → (es.map (·.1)).Nodup → f.read es = .ok x → ∃ x', f.read es' = .ok x' ∧ f.same x x'

theorem given_perm {es es' : List (Str × Content)} (h : es.Perm es') (k : Str) : (given es k).Perm (given es' k) :=
  (h.filter _).map _

theorem entriesFor_perm {own : List Str} {f : Flat} {es es' : List (Str × Content)} (h : es.Perm es') :
    (entriesFor own f es).Perm (entriesFor own f es') := by
  unfold entriesFor
  cases f.keys <;> exact h.filter _

theorem entriesFor_nodup {own : List Str} {f : Flat} {es : List (Str × Content)} (h : (es.map (·.1)).Nodup) :
    ((entriesFor own f es).map (·.1)).Nodup := by
  unfold entriesFor
  cases f.keys <;> exact h.sublist (List.filter_sublist.map _)

theorem standsFor_perm {own : List Str} {is : List Item} (hs : ∀ f, .flat f ∈ is → Stable f)
    {es es' : List (Str × Content)} (h : es.Perm es') (hn : (es.map (·.1)).Nodup) {r : Record is}
    (hr : StandsFor own es is r) : ∃ r', StandsFor own es' is r' ∧ same is r r' := by
  induction is with
  | nil => exact ⟨(), trivial, trivial⟩
  | cons i is ih =>
    cases i with
    | field f =>
      obtain ⟨x, r⟩ := r
      obtain ⟨h1, h2⟩ := hr
      obtain ⟨r', h3, h4⟩ := ih (fun f hf => hs f (by simp [hf])) h2
      refine ⟨(x, r'), ⟨?_, h3⟩, rfl, h4⟩
      have hg := given_perm h f.key
      rcases h1 with ⟨v, h5, h6⟩ | ⟨h5, h6⟩
      · rw [h5] at hg
        exact .inl ⟨v, by simpa using hg.symm, h6⟩
      · rw [h5] at hg
        exact .inr ⟨by simpa using hg.symm, h6⟩
    | flat f =>
      obtain ⟨x, r⟩ := r
      obtain ⟨h1, h2⟩ := hr
      obtain ⟨r', h3, h4⟩ := ih (fun f hf => hs f (by simp [hf])) h2
      obtain ⟨x', h5, h6⟩ := hs f (by simp) _ _ x (entriesFor_perm h) (entriesFor_nodup hn) h1
      exact ⟨(x', r'), ⟨h5, h3⟩, h6, h4⟩

theorem decode_perm {is : List Item} (ht : GoodFields is) (hs : ∀ f, .flat f ∈ is → Stable f)
    {es es' : List (Str × Content)} (h : es.Perm es') (hn : (es.map (·.1)).Nodup) {r : Record is}
    (hr : decode is es = .ok r) : ∃ r', decode is es' = .ok r' ∧ same is r r' := by
  rw [decode_ok ht] at hr
  obtain ⟨r', h1, h2⟩ := standsFor_perm hs h hn hr
  exact ⟨r', (decode_ok ht _ _).2 h1, h2⟩

/-! ### Rejected mappings -/

/-- The key of a field occurs at most once, and that of a required field once. -/
theorem standsFor_given {own : List Str} {is : List Item} {es : List (Str × Content)} {r : Record is}
    (hr : StandsFor own es is r) {f : Field} (hf : .field f ∈ is) :
    (given es f.key).length ≤ 1 ∧ (f.default = none → (given es f.key).length = 1) ∧
      ∀ v ∈ given es f.key, ∃ x, f.codec.de v = .ok x := by
  induction is with
  | nil => simp at hf
  | cons i is ih =>
    obtain ⟨x, r⟩ := r
    rcases List.mem_cons.1 hf with rfl | hm
    · rcases hr.1 with ⟨v, h1, h2⟩ | ⟨h1, h2⟩
      · exact ⟨by simp [h1], by simp [h1], by simp [h1]; exact ⟨x, h2⟩⟩
      · exact ⟨by simp [h1], by simp [h2], by simp [h1]⟩
    · cases i <;> exact ih hr.2 hm

/-- A struct without flattened fields ignores the entries of unknown keys. -/
theorem standsFor_ignore {own : List Str} {is : List Item} (hf : noFlat is = true) (hs : ∀ k ∈ ownKeys is, k ∈ own)
    (es : List (Str × Content)) (r : Record is) :
    StandsFor own (es.filter fun e => e.1 ∈ own) is r ↔ StandsFor own es is r := by
  induction is with
  | nil => simp [StandsFor]
  | cons i is ih =>
    cases i with
    | flat f => simp [noFlat] at hf
    | field f =>
      obtain ⟨x, r⟩ := r
      simp only [ownKeys, List.mem_cons, forall_eq_or_imp] at hs
      have e : given (es.filter fun e => e.1 ∈ own) f.key = given es f.key := by
        unfold given
        congr 1
        exact filter_filter_eq (p := (· = f.key)) (q := (· ∈ own)) (r := (· = f.key))
          (fun k => ⟨fun h => ⟨h, h ▸ hs.1⟩, fun h => h.1⟩)
      rw [StandsFor, StandsFor, e, ih (by simpa [noFlat] using hf) hs.2]

end Proofs
