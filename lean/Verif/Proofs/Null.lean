import Verif.Spec.Null
import Verif.Proofs.StructKnown

/- What null means for every field of the structs. -/

namespace Proofs
open Rust Compose Compose.Derive Spec

/-- What null means for a field, given the keys for which it means that there is no setting. -/
def NullAt (yes : List Str) : Item → Prop
  | .field f => (f.key ∈ yes ∧ ∃ d, f.codec.de .unit = .ok d ∧ f.default = some d) ∨
      (f.key ∉ yes ∧ ∀ x, f.codec.de .unit ≠ .ok x)
  | .flat f => ∀ ks, f.keys = some ks → ∀ k ∈ ks, k ∈ yes ∧ ∀ a b, (∀ e ∈ a, e.1 ≠ k) → (∀ e ∈ b, e.1 ≠ k) →
      f.read (a ++ (k, .unit) :: b) = f.read (a ++ b)

theorem given_insert {a b : List (Str × Content)} {k k' : Str} {v : Content} :
    given (a ++ (k, v) :: b) k' = given a k' ++ (if k = k' then [v] else []) ++ given b k' := by
  rw [given_append, given_cons]
  split <;> simp

theorem standsFor_null {own yes : List Str} {is : List Item} (hi : ∀ i ∈ is, NullAt yes i) {k : Str} (hk : k ∈ yes)
    (ho : k ∈ own) {a b : List (Str × Content)} (ha : ∀ e ∈ a, e.1 ≠ k) (hb : ∀ e ∈ b, e.1 ≠ k) (r : Record is) :
    StandsFor own (a ++ (k, .unit) :: b) is r ↔ StandsFor own (a ++ b) is r := by
  induction is with
  | nil => exact Iff.rfl
  | cons i is ih =>
    obtain ⟨hi, his⟩ := List.forall_mem_cons.1 hi
    obtain ⟨x, r⟩ := r
    cases i with
    | field f =>
      refine and_congr ?_ (ih his r)
      by_cases hf : k = f.key
      · subst hf
        rw [given_insert, if_pos rfl, given_append, given_nil ha, given_nil hb]
        rcases hi with ⟨-, d, h1, h2⟩ | ⟨h, -⟩
        · constructor
          · rintro (⟨v, h3, h4⟩ | ⟨h3, -⟩)
            · obtain rfl : Content.unit = v := by simpa using h3
              exact .inr ⟨rfl, h2.trans (congrArg some (Outcome.ok.inj (h1.symm.trans h4)))⟩
            · simp at h3
          · rintro (⟨v, h3, -⟩ | ⟨-, h3⟩)
            · simp at h3
            · exact .inl ⟨.unit, rfl, h1.trans (congrArg Outcome.ok (Option.some.inj (h2.symm.trans h3)))⟩
        · exact absurd hk h
      · rw [given_insert, if_neg hf, given_append, List.append_nil]
    | flat f =>
      refine and_congr ?_ (ih his r)
      have key : f.read (entriesFor own f (a ++ (k, .unit) :: b)) = f.read (entriesFor own f (a ++ b)) := by
        unfold entriesFor
        cases hks : f.keys with
        | none => simp [List.filter_append, List.filter_cons, ho]
        | some ks =>
          by_cases hm : k ∈ ks
          · simp only [List.filter_append, List.filter_cons, hm, decide_true, if_true]
            exact (hi ks hks k hm).2 _ _ (fun e he => ha e (List.mem_filter.1 he).1) fun e he => hb e (List.mem_filter.1 he).1
          · simp [List.filter_append, List.filter_cons, hm]
      exact Eq.congr_left key

theorem standsFor_not_null {own yes : List Str} {is : List Item} (hi : ∀ i ∈ is, NullAt yes i) {k : Str} (hk : k ∉ yes)
    (ho : k ∈ ownKeys is) {es : List (Str × Content)} (he : (k, .unit) ∈ es) (r : Record is) : ¬ StandsFor own es is r := by
  induction is with
  | nil => cases ho
  | cons i is ih =>
    obtain ⟨hi, his⟩ := List.forall_mem_cons.1 hi
    obtain ⟨x, r⟩ := r
    cases i with
    | field f =>
      intro h
      rcases List.mem_cons.1 ho with rfl | ho
      · have hg : Content.unit ∈ given es f.key :=
          List.mem_map.2 ⟨_, List.mem_filter.2 ⟨he, by simp⟩, rfl⟩
        rcases hi with ⟨hi, -⟩ | ⟨-, hn⟩
        · exact hk hi
        · rcases h.1 with ⟨v, h1, h2⟩ | ⟨h1, -⟩
          · rw [h1] at hg
            obtain rfl := List.mem_singleton.1 hg
            exact hn x h2
          · rw [h1] at hg; cases hg
      · exact ih his ho r h.2
    | flat f =>
      intro h
      rcases List.mem_append.1 ho with ho | ho
      · cases hks : f.keys with
        | none => rw [hks] at ho; cases ho
        | some ks => rw [hks] at ho; exact hk (hi ks hks k ho).1
      · exact ih his ho r h.2

section items
open Codecs

variable {yes : List Str}

theorem optWith_null {α : Type} {key : String} {c : Codec (Option α)} (hc : c.de .unit = .ok none) (h : key.toList ∈ yes) :
    NullAt yes (optWith key c) := .inl ⟨h, none, hc, rfl⟩

theorem field_not_null {α : Type} {key : String} {c : Codec α} {d : Option α} {sk : α → Bool}
    (hn : ∀ x, c.de .unit ≠ .ok x) (h : key.toList ∉ yes) : NullAt yes (.field ⟨key.toList, α, c, d, sk⟩) := .inr ⟨h, hn⟩

theorem rest_null {f : Flat} (h : f.keys = none) : NullAt yes (.flat f) := fun ks hk => by rw [h] at hk; cases hk

theorem scan_skip {β : Type} {de : Content → Option β} {key : Str} {s : Option β} {a b : List (Str × Content)}
    (ha : ∀ e ∈ a, e.1 ≠ key) : scanField de key s (a ++ b) = scanField de key s b := by
  induction a with
  | nil => rfl
  | cons e a ih =>
    obtain ⟨h1, h2⟩ := List.forall_mem_cons.1 ha
    rw [List.cons_append, scanField, if_neg h1, ih h2]

theorem scan_other {β : Type} {de : Content → Option β} {key k : Str} {v : Content} (hk : ¬ k = key) {s : Option β}
    {a b : List (Str × Content)} : scanField de key s (a ++ (k, v) :: b) = scanField de key s (a ++ b) := by
  induction a generalizing s with
  | nil =>
    show scanField _ _ _ ((k, v) :: b) = _
    rw [scanField, if_neg hk]; rfl
  | cons e a ih =>
    show scanField _ _ _ (e :: (a ++ (k, v) :: b)) = scanField _ _ _ (e :: (a ++ b))
    simp only [scanField, ih]

theorem flatOption_null {α : Type} {de : Content → Option α} {key k : Str} {a b : List (Str × Content)} (ha : ∀ e ∈ a, e.1 ≠ k)
    (hb : ∀ e ∈ b, e.1 ≠ k) : flatOption de key (a ++ (k, .unit) :: b) = flatOption de key (a ++ b) := by
  unfold flatOption
  by_cases hk : k = key
  · subst hk
    have hb' : ∀ s : Option (Option α), scanField (optionOf de) k s b = some s := fun s => by
      rw [← List.append_nil b, scan_skip hb]; rfl
    rw [scan_skip ha, scan_skip ha, hb', scanField, if_pos rfl]
    simp [optionOf, hb']
  · rw [scan_other hk]

theorem dockerfile_null (h1 : "dockerfile".toList ∈ yes) (h2 : "dockerfile_inline".toList ∈ yes) : NullAt yes dockerfile := by
  rintro ks hk k hm
  obtain rfl := Option.some.inj hk
  refine ⟨?_, fun a b ha hb => ?_⟩
  · simp only [List.mem_cons, List.not_mem_nil, or_false] at hm
    rcases hm with rfl | rfl <;> assumption
  · show Outcome.ofOption (Dockerfile.optionEntries _) = Outcome.ofOption (Dockerfile.optionEntries _)
    rw [Dockerfile.optionEntries, flatOption_null ha hb, flatOption_null ha hb]; rfl

theorem networkConfig_null {E : Env} (h1 : "network_mode".toList ∈ yes) (h2 : "networks".toList ∈ yes) :
    NullAt yes (Structs.networkConfig E) := by
  rintro ks hk k hm
  obtain rfl := Option.some.inj hk
  refine ⟨?_, fun a b ha hb => ?_⟩
  · simp only [List.mem_cons, List.not_mem_nil, or_false] at hm
    rcases hm with rfl | rfl <;> assumption
  · show Outcome.ofOption (NetworkConfigOf.optionEntries _ _) = Outcome.ofOption (NetworkConfigOf.optionEntries _ _)
    rw [NetworkConfigOf.optionEntries, flatOption_null ha hb, flatOption_null ha hb]; rfl

theorem configSource_null (h1 : "file".toList ∈ yes) (h2 : "environment".toList ∈ yes) (h3 : "content".toList ∈ yes) :
    NullAt yes configSource := by
  rintro ks hk k hm
  obtain rfl := Option.some.inj hk
  refine ⟨?_, fun a b ha hb => ?_⟩
  · simp only [List.mem_cons, List.not_mem_nil, or_false] at hm
    rcases hm with rfl | rfl | rfl <;> assumption
  · show Outcome.ofOption (ConfigSource.deEntries _) = Outcome.ofOption (ConfigSource.deEntries _)
    rw [ConfigSource.deEntries, flatOption_null ha hb, flatOption_null ha hb, flatOption_null ha hb]; rfl

theorem secretSource_null (h1 : "file".toList ∈ yes) (h2 : "environment".toList ∈ yes) : NullAt yes secretSource := by
  rintro ks hk k hm
  obtain rfl := Option.some.inj hk
  refine ⟨?_, fun a b ha hb => ?_⟩
  · simp only [List.mem_cons, List.not_mem_nil, or_false] at hm
    rcases hm with rfl | rfl <;> assumption
  · show Outcome.ofOption (SecretSource.deEntries _) = Outcome.ofOption (SecretSource.deEntries _)
    rw [SecretSource.deEntries, flatOption_null ha hb, flatOption_null ha hb]; rfl

end items

/-- The keys for which null means that there is no setting. -/
def nullKeys (optional durations : List String) : List Str := (optional.filter (· ∉ durations)).map String.toList

/-- Every field is shown to be of one of the kinds. -/
macro "null_items" : tactic => `(tactic| (
  repeat' (first
    | refine List.forall_mem_cons.2 ⟨?_, ?_⟩
    | (intro i hi; cases hi; done)
    | exact rest_null rfl
    | exact optWith_null rfl (by decide +kernel)
    | exact field_not_null (by intro x h; cases h) (by decide +kernel)
    | exact dockerfile_null (by decide +kernel) (by decide +kernel)
    | exact networkConfig_null (by decide +kernel) (by decide +kernel)
    | exact configSource_null (by decide +kernel) (by decide +kernel) (by decide +kernel)
    | exact secretSource_null (by decide +kernel) (by decide +kernel))))

set_option maxHeartbeats 1000000 in
theorem optionals_null (E : Env) : ∀ s ∈ optionals E, ∀ i ∈ s.info.fields, NullAt (nullKeys s.optional s.durations) i := by
  unfold optionals structs parts optionalKeys
  simp only [List.zip_cons_cons, List.zip_nil_left, List.map_cons, List.map_nil]
  refine List.forall_mem_cons.2 ⟨?_, ?_⟩
  · unfold file Structs.compose
    dsimp only
    null_items
  refine List.forall_mem_cons.2 ⟨?_, ?_⟩
  · unfold Structs.ipamConfig
    dsimp only
    null_items
  refine List.forall_mem_cons.2 ⟨?_, ?_⟩
  · unfold Structs.ipam
    dsimp only
    null_items
  refine List.forall_mem_cons.2 ⟨?_, ?_⟩
  · unfold Structs.network
    dsimp only
    null_items
  refine List.forall_mem_cons.2 ⟨?_, ?_⟩
  · unfold Structs.volume
    dsimp only
    null_items
  refine List.forall_mem_cons.2 ⟨?_, ?_⟩
  · unfold Structs.config
    dsimp only
    null_items
  refine List.forall_mem_cons.2 ⟨?_, ?_⟩
  · unfold Structs.secret
    dsimp only
    null_items
  refine List.forall_mem_cons.2 ⟨?_, ?_⟩
  · unfold Structs.«include»
    dsimp only
    null_items
  refine List.forall_mem_cons.2 ⟨?_, ?_⟩
  · unfold Structs.bpsLimit
    dsimp only
    null_items
  refine List.forall_mem_cons.2 ⟨?_, ?_⟩
  · unfold Structs.iopsLimit
    dsimp only
    null_items
  refine List.forall_mem_cons.2 ⟨?_, ?_⟩
  · unfold Structs.weightDevice
    dsimp only
    null_items
  refine List.forall_mem_cons.2 ⟨?_, ?_⟩
  · unfold Structs.blkioConfig
    dsimp only
    null_items
  refine List.forall_mem_cons.2 ⟨?_, ?_⟩
  · unfold Structs.configOrSecret
    dsimp only
    null_items
  refine List.forall_mem_cons.2 ⟨?_, ?_⟩
  · unfold Structs.ulimit
    dsimp only
    null_items
  refine List.forall_mem_cons.2 ⟨?_, ?_⟩
  · unfold Structs.build
    dsimp only
    null_items
  refine List.forall_mem_cons.2 ⟨?_, ?_⟩
  · unfold Structs.preference
    dsimp only
    null_items
  refine List.forall_mem_cons.2 ⟨?_, ?_⟩
  · unfold Structs.placement
    dsimp only
    null_items
  refine List.forall_mem_cons.2 ⟨?_, ?_⟩
  · unfold Structs.restartPolicy
    dsimp only
    null_items
  refine List.forall_mem_cons.2 ⟨?_, ?_⟩
  · unfold Structs.updateOrRollbackConfig
    dsimp only
    null_items
  refine List.forall_mem_cons.2 ⟨?_, ?_⟩
  · unfold Structs.limits
    dsimp only
    null_items
  refine List.forall_mem_cons.2 ⟨?_, ?_⟩
  · unfold Structs.discreteResourceSpec
    dsimp only
    null_items
  refine List.forall_mem_cons.2 ⟨?_, ?_⟩
  · unfold Structs.genericResource
    dsimp only
    null_items
  refine List.forall_mem_cons.2 ⟨?_, ?_⟩
  · unfold Structs.resourceDevice
    dsimp only
    null_items
  refine List.forall_mem_cons.2 ⟨?_, ?_⟩
  · unfold Structs.reservations
    dsimp only
    null_items
  refine List.forall_mem_cons.2 ⟨?_, ?_⟩
  · unfold Structs.resources
    dsimp only
    null_items
  refine List.forall_mem_cons.2 ⟨?_, ?_⟩
  · unfold Structs.deploy
    dsimp only
    null_items
  refine List.forall_mem_cons.2 ⟨?_, ?_⟩
  · unfold Structs.watchRule
    dsimp only
    null_items
  refine List.forall_mem_cons.2 ⟨?_, ?_⟩
  · unfold Structs.develop
    dsimp only
    null_items
  refine List.forall_mem_cons.2 ⟨?_, ?_⟩
  · unfold Structs.envFileConfig
    dsimp only
    null_items
  refine List.forall_mem_cons.2 ⟨?_, ?_⟩
  · unfold Structs.dependency
    dsimp only
    null_items
  refine List.forall_mem_cons.2 ⟨?_, ?_⟩
  · unfold Structs.extend
    dsimp only
    null_items
  refine List.forall_mem_cons.2 ⟨?_, ?_⟩
  · unfold Structs.logging
    dsimp only
    null_items
  refine List.forall_mem_cons.2 ⟨?_, ?_⟩
  · unfold Structs.port
    dsimp only
    null_items
  refine List.forall_mem_cons.2 ⟨?_, ?_⟩
  · unfold Structs.common
    dsimp only
    null_items
  refine List.forall_mem_cons.2 ⟨?_, ?_⟩
  · unfold Structs.volumeOptions
    dsimp only
    null_items
  refine List.forall_mem_cons.2 ⟨?_, ?_⟩
  · unfold Structs.mountVolume
    dsimp only
    null_items
  refine List.forall_mem_cons.2 ⟨?_, ?_⟩
  · unfold Structs.bindOptions
    dsimp only
    null_items
  refine List.forall_mem_cons.2 ⟨?_, ?_⟩
  · unfold Structs.mountBind
    dsimp only
    null_items
  refine List.forall_mem_cons.2 ⟨?_, ?_⟩
  · unfold Structs.tmpfsOptions
    dsimp only
    null_items
  refine List.forall_mem_cons.2 ⟨?_, ?_⟩
  · unfold Structs.mountTmpfs
    dsimp only
    null_items
  refine List.forall_mem_cons.2 ⟨?_, ?_⟩
  · unfold Structs.mountNamedPipe
    dsimp only
    null_items
  refine List.forall_mem_cons.2 ⟨?_, ?_⟩
  · unfold Structs.mountCluster
    dsimp only
    null_items
  refine List.forall_mem_cons.2 ⟨?_, ?_⟩
  · unfold Structs.serviceNetwork
    dsimp only
    null_items
  refine List.forall_mem_cons.2 ⟨?_, ?_⟩
  · unfold Structs.service
    dsimp only
    null_items
  intro i hi; cases hi

end Proofs
