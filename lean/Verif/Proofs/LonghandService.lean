import Verif.Proofs.LonghandSets

/- Services and files without short syntax. -/

namespace Proofs
open Rust Compose Compose.Derive Compose.Codecs Spec Spec.Longhand
open Props hiding mapping entriesOf_mapping

theorem turns_opt {α : Type} {key : String} {c : Codec α} {g : Content → Content} {h : α → α} (t : Turns c g h)
    (hn : ∀ x, c.de .unit ≠ .ok x) (hg : g .unit = .unit) : TurnsAt key.toList g (opt key c) (Option.map h) :=
  ⟨rfl, turns_option t hn hg, fun x hx => by cases hx; rfl⟩

theorem turns_many {α : Type} {key : String} {c : Codec (List α)} {g : Content → Content} {h : List α → List α} (t : Turns c g h)
    (hd : h [] = []) : TurnsAt key.toList g (many key c) h :=
  ⟨rfl, t, fun x hx => by cases hx; exact hd⟩

theorem turns_dependsOnAt : TurnsAt "depends_on".toList longDependsOn Structs.dependsOn longDependencies :=
  ⟨rfl, turns_dependsOn, fun x hx => by cases hx; rfl⟩

theorem scanField_setAt {β : Type} {de : Content → Option β} {k : Str} {g : Content → Content} {h : β → β}
    (t : ∀ v x, de v = some x → de (g v) = some (h x)) (es : List (Str × Content)) : ∀ (s r : Option β),
    scanField de k s es = some r → scanField de k (s.map h) (setAt k g es) = some (r.map h) := by
  induction es with
  | nil => intro s r hs; cases hs; rfl
  | cons e es ih =>
    intro s r hs
    obtain ⟨k', v⟩ := e
    unfold setAt at ih ⊢
    rw [List.map_cons]
    unfold scanField at hs ⊢
    by_cases hk : k' = k
    · simp only [hk, if_true] at hs ⊢
      cases s with
      | some _ => simp at hs
      | none =>
        cases hv : de v with
        | none => simp [hv] at hs
        | some x =>
          simp only [hv, Option.isSome_none, Bool.false_eq_true, if_false] at hs
          simp only [Option.map_none, Option.isSome_none, Bool.false_eq_true, if_false, t v x hv]
          exact ih _ _ hs
    · simp only [hk, if_false] at hs ⊢
      exact ih _ _ hs

theorem scanField_other {β : Type} {de : Content → Option β} {k k' : Str} {g : Content → Content} (hk : k ≠ k')
    (es : List (Str × Content)) : ∀ s : Option β, scanField de k' s (setAt k g es) = scanField de k' s es := by
  induction es with
  | nil => intro s; rfl
  | cons e es ih =>
    intro s
    obtain ⟨k₀, v⟩ := e
    unfold setAt at ih ⊢
    rw [List.map_cons]
    unfold scanField
    by_cases h : k₀ = k'
    · have : ¬ k' = k := fun e => hk e.symm
      simp only [h, if_true, this, if_false, ih]
    · simp only [h, if_false]
      exact ih _

theorem networks_setAt {E : Env} {es : List (Str × Content)} {b : Option (Structs.Networks E)}
    (hb : flatOption (fun c => ((Structs.networks E).de c).toOption) "networks".toList es = some b) :
    flatOption (fun c => ((Structs.networks E).de c).toOption) "networks".toList (setAt "networks".toList longNetworks es) =
      some (b.map longNetworkMap) := by
  have t : ∀ v x, (Structs.networks E).de v = .ok x → (Structs.networks E).de (longNetworks v) = .ok (longNetworkMap x) := turns_networks
  unfold flatOption at hb ⊢
  obtain ⟨o, h1, rfl⟩ := Option.map_eq_some_iff.1 hb
  have := scanField_setAt (g := longNetworks) (h := Option.map longNetworkMap) (by
    intro v x hv
    have key : ∀ v x, ((Structs.networks E).de v).toOption = some x →
        optionOf (fun c => ((Structs.networks E).de c).toOption) (longNetworks v) = some (some (longNetworkMap x)) := by
      intro v x h
      have h := t v x (Outcome.toOption_eq_some.1 h)
      cases hv : longNetworks v <;> rw [hv] at h <;> simp [optionOf, h]
      simp [Structs.networks, shortOrLong, Codecs.set] at h
    cases v <;> simp only [optionOf, Option.map_eq_some_iff] at hv
    · cases hv; rfl
    all_goals (obtain ⟨y, h2, rfl⟩ := hv; exact key _ _ h2)) es none o h1
  simp only [Option.map_none] at this
  rw [this]
  cases o <;> rfl

theorem turns_networkConfig {E : Env} : TurnsAt "networks".toList longNetworks (Structs.networkConfig E)
    (Option.map longNetworkConfig) := by
  refine ⟨_, rfl, by simp, ?_⟩
  intro es x hx
  have hx : NetworkConfigOf.optionEntries (fun c => ((Structs.networks E).de c).toOption) es = some x := Outcome.ofOption_eq_ok.1 hx
  refine Outcome.ofOption_eq_ok.2 ?_
  obtain ⟨a, b, ha, hb, hab⟩ : ∃ a b, flatOption NetworkMode.de "network_mode".toList es = some a ∧
      flatOption (fun c => ((Structs.networks E).de c).toOption) "networks".toList es = some b ∧
      ((∃ m, a = some m ∧ b = none ∧ x = some (.networkMode m)) ∨ (∃ n, a = none ∧ b = some n ∧ x = some (.networks n)) ∨
        (a = none ∧ b = none ∧ x = none)) := by
    unfold NetworkConfigOf.optionEntries at hx
    split at hx
    · rename_i h1 h2; cases hx; exact ⟨_, _, h1, h2, .inl ⟨_, rfl, rfl, rfl⟩⟩
    · rename_i h1 h2; cases hx; exact ⟨_, _, h1, h2, .inr (.inl ⟨_, rfl, rfl, rfl⟩)⟩
    · rename_i h1 h2; cases hx; exact ⟨_, _, h1, h2, .inr (.inr ⟨rfl, rfl, rfl⟩)⟩
    · cases hx
  have ha' : flatOption NetworkMode.de "network_mode".toList (setAt "networks".toList longNetworks es) = some a := by
    unfold flatOption at ha ⊢
    rw [scanField_other (by decide)]
    exact ha
  have hb' := networks_setAt hb
  unfold NetworkConfigOf.optionEntries
  rw [ha', hb']
  rcases hab with ⟨m, rfl, rfl, rfl⟩ | ⟨n, rfl, rfl, rfl⟩ | ⟨rfl, rfl, rfl⟩ <;> rfl

theorem turns_long {S L : Type} {s : Codec S} {l : Codec L} {k : String} {g : Content → Content} {h : L → L} (t : Turns l (atKey k g) h)
    {v : Content} {y : L} (hv : (shortOrLong s l).de v = .ok (.long y)) : (shortOrLong s l).de (atKey k g v) = .ok (.long (h y)) := by
  cases v <;> simp only [shortOrLong, Outcome.map_eq_ok, reduceCtorEq, and_false, exists_false] at hv
  obtain ⟨_, h1, h2⟩ := hv
  cases h2
  have := t _ _ h1
  simp only [atKey] at this ⊢
  simp [shortOrLong, this]

theorem turns_build {E : Env} : Turns (shortOrLong (context E) (struct (Structs.build E))) longBuild (longBuildValue E) := by
  intro v x hx
  have h1 := turns_shortOrLong (s := context E) (l := struct (Structs.build E)) (g := Longhand.build) (fun _ => ⟨_, rfl⟩)
    (fun _ h => by simp [context, text] at h) (fun _ _ => build_long) v x hx
  have h2 := turns_long (turns_struct (own := buildKeys) (k := "secrets") rfl
    (Place.nth 17 (many "secrets" (Codecs.list (shortOrLong identifier (struct Structs.configOrSecret)))) (is := Structs.build E) rfl)
    (turns_many turns_configs rfl) (by decide +kernel)) h1
  exact turns_long (turns_struct (own := buildKeys) (k := "ulimits") rfl
    (Place.nth 19 (many "ulimits" Structs.ulimits) (is := Structs.build E) rfl)
    (turns_many turns_ulimits rfl) (by decide +kernel)) h2

theorem turns_changeAt {is : List Item} {own : List Str} [Keys is own] [DistinctKeys own] {k : String} {g : Content → Content}
    (n : Nat) (i : Item) {h : i.Ty → i.Ty} (hf : noFlat is = false) (hi : is[n]? = some i) (ht : TurnsAt k.toList g i h) (hm : k.toList ∈ own) :
    Turns (struct is) (atKey k g) (changeAt n i h hi) := turns_struct hf (Place.nth n i hi) ht hm

theorem turns_service {E : Env} [EnvOk E] [ValueEqOk E] : Turns (struct (Structs.service E)) (longService E) (longServiceFields E) := by
  have t1 := turns_changeAt (is := Structs.service E) (own := serviceKeys) (k := "build") 1 _ rfl rfl (turns_opt turns_build (fun x h => by simp [shortOrLong, context, text] at h) rfl) (by decide +kernel)
  have t2 := turns_changeAt (is := Structs.service E) (own := serviceKeys) (k := "configs") 17 _ rfl rfl (turns_many turns_configs rfl) (by decide +kernel)
  have t3 := turns_changeAt (is := Structs.service E) (own := serviceKeys) (k := "depends_on") 20 _ rfl rfl (turns_dependsOnAt) (by decide +kernel)
  have t4 := turns_changeAt (is := Structs.service E) (own := serviceKeys) (k := "env_file") 30 _ rfl rfl (turns_opt turns_envFile (fun x h => by simp [Structs.envFile] at h) rfl) (by decide +kernel)
  have t5 := turns_changeAt (is := Structs.service E) (own := serviceKeys) (k := "networks") 48 _ rfl rfl (turns_networkConfig) (by decide +kernel)
  have t6 := turns_changeAt (is := Structs.service E) (own := serviceKeys) (k := "ports") 59 _ rfl rfl (turns_many turns_ports rfl) (by decide +kernel)
  have t7 := turns_changeAt (is := Structs.service E) (own := serviceKeys) (k := "secrets") 67 _ rfl rfl (turns_many turns_configs rfl) (by decide +kernel)
  have t8 := turns_changeAt (is := Structs.service E) (own := serviceKeys) (k := "ulimits") 77 _ rfl rfl (turns_many turns_ulimits rfl) (by decide +kernel)
  have t9 := turns_changeAt (is := Structs.service E) (own := serviceKeys) (k := "volumes") 80 _ rfl rfl (turns_many turns_volumes rfl) (by decide +kernel)
  exact fun v r h => t1 _ _ (t2 _ _ (t3 _ _ (t4 _ _ (t5 _ _ (t6 _ _ (t7 _ _ (t8 _ _ (t9 _ _ h))))))))

theorem turns_req {α : Type} {key : String} {c : Codec α} {g : Content → Content} {h : α → α} (t : Turns c g h) :
    TurnsAt key.toList g (req key c) h := ⟨rfl, t, fun x hx => by cases hx⟩

theorem turns_file {E : Env} [EnvOk E] [ValueEqOk E] : Turns (struct (Structs.compose E)) (longFile E) (longFileFields E) := by
  have t1 := turns_struct (is := Structs.compose E) (own := composeKeys) (k := "include") rfl (.there (.there .here))
    (turns_many turns_includes rfl) (by decide +kernel)
  have t2 := turns_struct (is := Structs.compose E) (own := composeKeys) (k := "services") rfl (.there (.there (.there .here)))
    (turns_req (turns_map turns_service)) (by decide +kernel)
  exact fun v r h => t1 _ _ (t2 _ _ h)

end Proofs
