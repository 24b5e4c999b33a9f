import Verif.Spec.Panic
import Verif.Proofs.StructKnown

/- Where in a file reading can panic. -/

namespace Proofs
open Rust Compose Compose.Derive Compose.Codecs Compose.Structs Spec
open Props hiding mapping entriesOf_mapping

/-- Positions and texts. -/
abbrev Places := List Step → Str → Prop

/-- Reading panics only because of a text at one of the places. -/
def PanicsIn {α : Type} (S : Places) (c : Codec α) : Prop := ∀ v, c.de v = .panic → ∃ p t, At (.str t) p v ∧ S p t

/-- The places after a step. -/
def Places.after (S : Places) (s : Step) : Places := fun p t => S (s :: p) t

/-- The same for a field. -/
def ItemIn (S : Places) (i : Item) : Prop :=
  (∀ f k, i = .field f → f.key = String.toList k → PanicsIn (S.after (.key k)) f.codec) ∧
    (∀ f, i = .flat f → ∀ es, f.read es ≠ .panic)

theorem itemIn_of_on {S : Places} {i : Item} (h : ItemPanicsOn (fun _ => False) i) : ItemIn S i := by
  refine ⟨fun f _ hf _ v hv => ?_, fun f hf es hes => ?_⟩
  · obtain ⟨_, _, h⟩ := (h.field f hf).panic v hv; exact h.elim
  · obtain ⟨_, _, _, _, h⟩ := h.flat f hf es hes; exact h

theorem put_panics {is : List Item} {k : Str} {v : Content} {ss : Slots is} (hp : put is k v ss = some .panic) :
    ∃ f, .field f ∈ is ∧ f.key = k ∧ f.codec.de v = .panic := by
  induction is with
  | nil => simp [put] at hp
  | cons i is ih =>
    cases i with
    | field f =>
      obtain ⟨s, ss⟩ := ss
      rw [put] at hp
      split at hp
      · rename_i hk
        have hp := Option.some.inj hp
        split at hp
        · cases hp
        · exact ⟨f, by simp, hk.symm, map_panic.1 hp⟩
      · obtain ⟨o, h1, h2⟩ := Option.map_eq_some_iff.1 hp
        obtain ⟨g, hg, h⟩ := ih (ss := ss) (by rw [h1, map_panic.1 h2])
        exact ⟨g, by simp [hg], h⟩
    | flat f =>
      obtain ⟨g, hg, h⟩ := ih (ss := ss) hp
      exact ⟨g, by simp [hg], h⟩

theorem loop_panics {is : List Item} {ss : Slots is} {rest es : List (Str × Content)} (hl : loop is ss rest es = .panic) :
    ∃ e ∈ es, ∃ f, .field f ∈ is ∧ f.key = e.1 ∧ f.codec.de e.2 = .panic := by
  induction es generalizing ss rest with
  | nil => simp [loop] at hl
  | cons e es ih =>
    obtain ⟨k, v⟩ := e
    rw [loop] at hl
    split at hl
    · obtain ⟨e, he, hs⟩ := ih hl
      exact ⟨e, by simp [he], hs⟩
    · obtain ⟨e, he, hs⟩ := ih hl
      exact ⟨e, by simp [he], hs⟩
    · cases hl
    · rename_i hp
      exact ⟨(k, v), by simp, put_panics hp⟩

theorem build_ne_panic {is : List Item} (h : ∀ f, .flat f ∈ is → ∀ es, f.read es ≠ .panic) {ss : Slots is}
    {rest : List (Str × Content)} : Derive.build is ss rest ≠ .panic := by
  intro hb
  induction is generalizing rest with
  | nil => cases hb
  | cons i is ih =>
    have hs : ∀ f, .flat f ∈ is → ∀ es, f.read es ≠ .panic := fun f hf => h f (by simp [hf])
    cases i with
    | field f =>
      obtain ⟨s, ss⟩ := ss
      rw [Derive.build] at hb
      split at hb
      · exact ih hs (ss := ss) (map_panic.1 hb)
      · cases hb
    | flat f =>
      rw [Derive.build] at hb
      split at hb
      · rcases bind_panic.1 hb with hb | ⟨_, _, hb⟩
        · exact h f (by simp) _ hb
        · exact ih hs (ss := ss) (map_panic.1 hb)
      · rcases bind_panic.1 hb with hb | ⟨_, _, hb⟩
        · exact h f (by simp) _ hb
        · exact ih hs (ss := ss) (map_panic.1 hb)

theorem mem_mapping {k : Str} {v : Content} {es : List (Str × Content)} (h : (k, v) ∈ es) :
    (Content.str k, v) ∈ es.map fun e => (Content.str e.1, e.2) := List.mem_map.2 ⟨(k, v), h, rfl⟩

theorem struct_in {S : Places} {is : List Item} (hf : noFlat is = false) (h : ∀ i ∈ is, ItemIn S i) : PanicsIn S (struct is) := by
  intro v hv
  rw [struct_de_not_list hf] at hv
  rcases bind_panic.1 hv with hv | ⟨es, h1, h2⟩
  · exact absurd hv (ofOption_ne_panic _)
  obtain rfl : v = Derive.mapping es := entriesOf_iff.1 (Outcome.ofOption_eq_ok.1 h1)
  rcases bind_panic.1 h2 with h2 | ⟨⟨ss, rest⟩, h3, h4⟩
  · obtain ⟨⟨k, v⟩, he, f, hf, hk, hp⟩ := loop_panics h2
    have hk' : f.key = (String.ofList k).toList := by simp [hk]
    obtain ⟨p, t, h5, h6⟩ := (h _ hf).1 f (String.ofList k) rfl hk' v hp
    refine ⟨.key (String.ofList k) :: p, t, .key (v := v) ?_ h5, h6⟩
    rw [String.toList_ofList]
    exact mem_mapping he
  · simp only at h4
    split at h4
    · exact absurd h4 (build_ne_panic fun f hf => (h _ hf).2 f rfl)
    · cases h4

theorem option_in {S : Places} {α : Type} {c : Codec α} (h : PanicsIn S c) : PanicsIn S (option c) := by
  intro v hv
  cases v with
  | unit => cases hv
  | _ => exact h _ (map_panic.1 hv)

theorem set_in {S : Places} {α : Type} [RustEq α] {c : Codec α} (h : PanicsIn (S.after .item) c) : PanicsIn S (set c) := by
  intro v hv
  cases v with
  | seq vs =>
    obtain ⟨w, hm, hw⟩ := readAll_panic (map_panic.1 hv)
    obtain ⟨p, t, h1, h2⟩ := h w hw
    exact ⟨_, t, .item hm h1, h2⟩
  | _ => cases hv

theorem map_in {S : Places} {α : Type} {k : Key} {c : Codec α} (h : PanicsIn (S.after .anyKey) c) : PanicsIn S (map k c) := by
  intro v hv
  rcases bind_panic.1 (map_panic.1 hv) with hv | ⟨es, h1, h2⟩
  · exact absurd hv (ofOption_ne_panic _)
  obtain rfl : v = Derive.mapping es := entriesOf_iff.1 (Outcome.ofOption_eq_ok.1 h1)
  obtain ⟨⟨k, v⟩, he, h3⟩ := readEntries_panic h2
  obtain ⟨p, t, h4, h5⟩ := h v h3
  exact ⟨_, t, .anyKey (mem_mapping he) h4, h5⟩

theorem shortOrLong_in {S : Places} {α β : Type} {c : Codec α} {l : Codec β} (hc : PanicsIn S c)
    (hl : PanicsOn (fun _ => False) l) : PanicsIn S (shortOrLong c l) := by
  intro v hv
  cases v with
  | map es => obtain ⟨_, _, h⟩ := hl.panic _ (map_panic.1 hv); exact h.elim
  | _ => exact hc _ (map_panic.1 hv)

theorem duration_in {S : Places} (h : ∀ t, durationParse t = .panic → S [] t) : PanicsIn S duration := by
  intro v hv
  obtain ⟨s, rfl, hs⟩ := deserializeDuration_panic hv
  exact ⟨[], s, .here, h s hs⟩

theorem shortPort_in {S : Places} {E : Env} (h : ∀ t, ShortPort.fromStr (readIp E) t = .panic → S [] t) :
    PanicsIn S (shortPort E) := by
  intro v hv
  change deserializeFromStrOrU16 _ _ v = .panic at hv
  unfold deserializeFromStrOrU16 at hv
  split at hv
  · split at hv <;> cases hv
  · split at hv <;> cases hv
  · rename_i s
    refine ⟨[], s, .here, h s ?_⟩
    split at hv
    · cases hv
    · cases hv
    · assumption
  · cases hv

theorem step_panics {s : HealthState} {e : Str × Content} (h : s.step e = .panic) :
    ∃ k : String, [.key k] ∈ healthcheckTimes ∧ e.1 = k.toList ∧ ∃ t, e.2 = .str t ∧ durationParse t = .panic := by
  have ht := step_panic h
  obtain ⟨k, v⟩ := e
  simp only [HealthState.step] at h
  split at h
  · (repeat' split at h) <;> cases h
  split at h
  · (repeat' split at h) <;> cases h
  split at h
  · exact ⟨"interval", by decide, ‹_›, ht⟩
  split at h
  · exact ⟨"timeout", by decide, ‹_›, ht⟩
  split at h
  · (repeat' split at h) <;> cases h
  split at h
  · exact ⟨"start_period", by decide, ‹_›, ht⟩
  split at h
  · exact ⟨"start_interval", by decide, ‹_›, ht⟩
  · (repeat' split at h) <;> cases h

theorem run_panics {s : HealthState} {es : List (Str × Content)} (h : s.run es = .panic) :
    ∃ e ∈ es, ∃ k : String, [.key k] ∈ healthcheckTimes ∧ e.1 = k.toList ∧ ∃ t, e.2 = .str t ∧ durationParse t = .panic := by
  induction es generalizing s with
  | nil => cases h
  | cons e es ih =>
    rw [HealthState.run] at h
    split at h
    · obtain ⟨e', he, ht⟩ := ih h
      exact ⟨e', by simp [he], ht⟩
    · cases h
    · rename_i hs
      exact ⟨e, by simp, step_panics hs⟩

theorem healthcheck_in {S : Places} (h : ∀ p ∈ healthcheckTimes, ∀ t, durationParse t = .panic → S p t) :
    PanicsIn S healthcheck := by
  intro v hv
  change Healthcheck.deserialize v = .panic at hv
  cases v with
  | map xs =>
    simp only [Healthcheck.deserialize] at hv
    split at hv
    · cases hv
    · rename_i es hes
      split at hv
      · exact absurd hv (finish_ne_panic _)
      · cases hv
      · rename_i hr
        obtain ⟨⟨x, y⟩, he, k, hk, rfl, t, rfl, h2⟩ := run_panics hr
        rw [stringKeys_iff] at hes
        rw [hes]
        exact ⟨[.key k], t, .key (mem_mapping he) .here, h _ hk t h2⟩
  | _ => cases hv

theorem field_in {S : Places} {α : Type} {key : String} {c : Codec α} {d : Option α} {sk : α → Bool}
    (h : PanicsIn (S.after (.key key)) c) : ItemIn S (.field ⟨key.toList, α, c, d, sk⟩) := by
  refine ⟨fun f k hf hk => ?_, (fun _ e => by cases e)⟩
  obtain rfl := Item.field.inj hf
  have : key = k := String.toList_inj.1 hk
  exact this ▸ h

theorem itemsIn_cons {S : Places} {i : Item} {is : List Item} (h : ItemIn S i) (hs : ∀ i ∈ is, ItemIn S i) :
    ∀ j ∈ i :: is, ItemIn S j := List.forall_mem_cons.2 ⟨h, hs⟩

theorem itemsIn_nil {S : Places} : ∀ j ∈ ([] : List Item), ItemIn S j := fun _ h => by cases h

/-- Texts that panic as durations at some places, texts that panic as ports at others. -/
def Delicate (E : Env) (times ports : List (List Step)) : Places := fun p t =>
  p ∈ times ∧ durationParse t = .panic ∨ p ∈ ports ∧ ShortPort.fromStr (readIp E) t = .panic

theorem PanicsIn.mono {S T : Places} {α : Type} {c : Codec α} (h : PanicsIn S c) (hst : ∀ p t, S p t → T p t) : PanicsIn T c :=
  fun v hv => by
    obtain ⟨p, t, h1, h2⟩ := h v hv
    exact ⟨p, t, h1, hst p t h2⟩

theorem restartPolicy_in (E : Env) : PanicsIn (Delicate E restartPolicyTimes []) (struct restartPolicy) := by
  refine struct_in rfl ?_
  unfold restartPolicy
  refine itemsIn_cons (itemIn_of_on inferInstance) ?_
  refine itemsIn_cons (field_in (duration_in fun t ht => .inl ⟨by decide, ht⟩)) ?_
  refine itemsIn_cons (itemIn_of_on inferInstance) ?_
  refine itemsIn_cons (field_in (duration_in fun t ht => .inl ⟨by decide, ht⟩)) ?_
  exact itemsIn_cons (itemIn_of_on inferInstance) itemsIn_nil

theorem updateOrRollbackConfig_in (E : Env) : PanicsIn (Delicate E updateTimes []) (struct updateOrRollbackConfig) := by
  refine struct_in rfl ?_
  unfold updateOrRollbackConfig
  refine itemsIn_cons (itemIn_of_on inferInstance) ?_
  refine itemsIn_cons (field_in (duration_in fun t ht => .inl ⟨by decide, ht⟩)) ?_
  refine itemsIn_cons (itemIn_of_on inferInstance) ?_
  refine itemsIn_cons (field_in (duration_in fun t ht => .inl ⟨by decide, ht⟩)) ?_
  refine itemsIn_cons (itemIn_of_on inferInstance) ?_
  refine itemsIn_cons (itemIn_of_on inferInstance) ?_
  exact itemsIn_cons (itemIn_of_on inferInstance) itemsIn_nil

theorem mem_under {k : String} {p : List Step} {ps : List (List Step)} (h : p ∈ ps) : .key k :: p ∈ under k ps :=
  List.mem_map_of_mem h

theorem deploy_in (E : Env) : PanicsIn (Delicate E deployTimes []) (struct (deploy E)) := by
  refine struct_in rfl ?_
  unfold deploy
  iterate 6 refine itemsIn_cons (itemIn_of_on inferInstance) ?_
  refine itemsIn_cons (field_in (option_in ((restartPolicy_in E).mono fun p t h => ?_))) ?_
  · exact h.imp (fun h => ⟨by simp only [deployTimes, List.mem_append]; exact .inl (.inl (mem_under h.1)), h.2⟩)
      fun h => by cases h.1
  refine itemsIn_cons (field_in (option_in ((updateOrRollbackConfig_in E).mono fun p t h => ?_))) ?_
  · exact h.imp (fun h => ⟨by simp only [deployTimes, List.mem_append]; exact .inr (mem_under h.1), h.2⟩)
      fun h => by cases h.1
  refine itemsIn_cons (field_in (option_in ((updateOrRollbackConfig_in E).mono fun p t h => ?_))) ?_
  · exact h.imp (fun h => ⟨by simp only [deployTimes, List.mem_append]; exact .inl (.inr (mem_under h.1)), h.2⟩)
      fun h => by cases h.1
  exact itemsIn_cons (itemIn_of_on inferInstance) itemsIn_nil

theorem service_in (E : Env) : PanicsIn (Delicate E serviceTimes servicePorts) (struct (service E)) := by
  refine struct_in rfl ?_
  unfold service
  dsimp only
  iterate 8 refine itemsIn_cons (itemIn_of_on inferInstance) ?_
  refine itemsIn_cons (field_in (duration_in fun t ht => .inl ⟨by decide, ht⟩)) ?_
  refine itemsIn_cons (field_in (duration_in fun t ht => .inl ⟨by decide, ht⟩)) ?_
  repeat' first
    | exact itemsIn_nil
    | refine itemsIn_cons (itemIn_of_on (by infer_instance)) ?_
    | refine itemsIn_cons (field_in (duration_in fun t ht => .inl ⟨by decide, ht⟩)) ?_
    | refine itemsIn_cons (field_in (option_in ((deploy_in E).mono fun p t h => ?_))) ?_
    | refine itemsIn_cons (field_in (option_in (healthcheck_in fun p hp t ht => ?_))) ?_
    | refine itemsIn_cons (field_in (@set_in _ _ (portsEq E) _ (shortOrLong_in (shortPort_in fun t ht => .inr ⟨by decide, ht⟩) inferInstance))) ?_
  · exact h.imp (fun h => ⟨by simp only [serviceTimes, List.mem_append]; exact .inr (mem_under h.1), h.2⟩) fun h => by cases h.1
  · exact .inl ⟨by simp only [serviceTimes, List.mem_append]; exact .inl (.inr (mem_under hp)), ht⟩

theorem compose_in (E : Env) : PanicsIn (Delicate E (inServices serviceTimes) (inServices servicePorts)) (struct (compose E)) := by
  refine struct_in rfl ?_
  unfold compose
  iterate 3 refine itemsIn_cons (itemIn_of_on inferInstance) ?_
  refine itemsIn_cons (field_in (map_in ((service_in E).mono fun p t h => ?_))) ?_
  · exact h.imp (And.imp_left fun h => List.mem_map_of_mem h) (And.imp_left fun h => List.mem_map_of_mem h)
  iterate 4 refine itemsIn_cons (itemIn_of_on inferInstance) ?_
  exact itemsIn_cons (itemIn_of_on inferInstance) itemsIn_nil

/-! ### The texts do panic there -/

/-- Reading panics if, in something that is read, a value at a position is replaced by a text. -/
def PanicsAt {α : Type} (p : List Step) (t : Str) (c : Codec α) : Prop :=
  ∀ v v' a, c.de v = .ok a → Replaced (.str t) p v v' → c.de v' = .panic

theorem split_mapping {es : List (Str × Content)} {before after : List (Content × Content)} {k v : Content}
    (h : before ++ (k, v) :: after = es.map fun e => (Content.str e.1, e.2)) :
    ∃ b x a, es = b ++ (x, v) :: a ∧ k = .str x ∧ before = (b.map fun e => (Content.str e.1, e.2)) ∧
      after = a.map fun e => (Content.str e.1, e.2) := by
  obtain ⟨b, r, rfl, rfl, hr⟩ := List.map_eq_append_iff.1 h.symm
  obtain ⟨⟨x, y⟩, a, rfl, hx, rfl⟩ := List.map_eq_cons_iff.1 hr
  cases hx
  exact ⟨b, x, a, rfl, rfl, rfl, rfl⟩

theorem mapping_append {b a : List (Str × Content)} {x : Str} {v : Content} :
    Content.map ((b.map fun e => (Content.str e.1, e.2)) ++ (.str x, v) :: a.map fun e => (Content.str e.1, e.2)) =
      Derive.mapping (b ++ (x, v) :: a) := by simp [Derive.mapping]

theorem put_replaced {is : List Item} (hn : (ownKeys is).Nodup) {f : Field} (hf : .field f ∈ is) {v v' : Content}
    {ss ss' : Slots is} (h : put is f.key v ss = some (.ok ss')) (hp : ∀ a, f.codec.de v = .ok a → f.codec.de v' = .panic) :
    put is f.key v' ss = some .panic := by
  induction is with
  | nil => cases hf
  | cons i is ih =>
    cases i with
    | flat g =>
      have hf : .field f ∈ is := by simpa using hf
      exact ih (by rw [ownKeys] at hn; exact (List.nodup_append.1 hn).2.1) hf (ss := ss) (ss' := ss') h
    | field g =>
      obtain ⟨s, ss⟩ := ss
      rw [ownKeys, List.nodup_cons] at hn
      rcases List.mem_cons.1 hf with e | hf
      · obtain rfl := Item.field.inj e
        rw [put, if_pos rfl] at h ⊢
        have h := Option.some.inj h
        split at h
        · cases h
        · rename_i hs
          rw [if_neg hs]
          cases hv : f.codec.de v with
          | ok a => rw [hp a hv]; rfl
          | err e => rw [hv] at h; cases h
          | panic => rw [hv] at h; cases h
      · have hne : f.key ≠ g.key := fun e => hn.1 (e ▸ field_mem_ownKeys hf)
        rw [put, if_neg hne] at h ⊢
        obtain ⟨o, h1, h2⟩ := Option.map_eq_some_iff.1 h
        cases o with
        | ok x => rw [ih hn.2 hf h1]; rfl
        | err e => cases h2
        | panic => cases h2

theorem put_ne_none {is : List Item} {f : Field} (hf : .field f ∈ is) {v : Content} {ss : Slots is} :
    put is f.key v ss ≠ none := by
  induction is with
  | nil => cases hf
  | cons i is ih =>
    cases i with
    | flat g => exact ih (by simpa using hf) (ss := ss)
    | field g =>
      obtain ⟨s, ss⟩ := ss
      rw [put]
      split
      · exact nofun
      · rename_i hne
        rcases List.mem_cons.1 hf with e | hf
        · exact absurd (congrArg Field.key (Item.field.inj e)) hne
        · simpa using ih hf (ss := ss)

theorem loop_replaced {is : List Item} (hn : (ownKeys is).Nodup) {f : Field} (hf : .field f ∈ is) {v v' : Content}
    (hp : ∀ a, f.codec.de v = .ok a → f.codec.de v' = .panic) {b a : List (Str × Content)} {ss : Slots is}
    {rest : List (Str × Content)} {r : Slots is × List (Str × Content)} (h : loop is ss rest (b ++ (f.key, v) :: a) = .ok r) :
    loop is ss rest (b ++ (f.key, v') :: a) = .panic := by
  induction b generalizing ss rest with
  | nil =>
    rw [List.nil_append, loop] at h ⊢
    split at h
    · exact absurd ‹_› (put_ne_none hf)
    · rw [put_replaced hn hf ‹_› hp]
    · cases h
    · cases h
  | cons e b ih =>
    obtain ⟨k, w⟩ := e
    rw [List.cons_append, loop] at h ⊢
    split at h
    · exact ih h
    · exact ih h
    · cases h
    · cases h

theorem struct_at {is : List Item} (hn : (ownKeys is).Nodup) {f : Field} (hf : .field f ∈ is) {k : String}
    (hk : f.key = k.toList) {p : List Step} {t : Str} (h : PanicsAt p t f.codec) : PanicsAt (.key k :: p) t (struct is) := by
  intro v v' r hr hv
  cases hv with
  | @key _ _ v v' before after hv =>
    obtain ⟨es, h1, h2⟩ := Outcome.bind_eq_ok.1 hr
    have h1 := entriesOf_iff.1 (Outcome.ofOption_eq_ok.1 h1)
    obtain ⟨b, x, a, rfl, hx, rfl, rfl⟩ := split_mapping (Content.map.inj h1)
    cases hx
    obtain ⟨s, h3, -⟩ := Outcome.bind_eq_ok.1 h2
    change (Outcome.ofOption (entriesOf _)).bind (decode is) = .panic
    rw [mapping_append, entriesOf_mapping]
    refine bind_panic.2 (.inr ⟨_, rfl, bind_panic.2 (.inl ?_)⟩)
    rw [← hk] at h3 ⊢
    exact loop_replaced hn hf (fun y hy => h _ _ y hy hv) h3

theorem option_at {α : Type} {c : Codec α} {s : Step} {p : List Step} {t : Str} (h : PanicsAt (s :: p) t c) :
    PanicsAt (s :: p) t (option c) := by
  intro v v' a ha hv
  have key : ∀ w : Content, w ≠ .unit → (option c).de w = (c.de w).map some := by
    intro w hw
    cases w with
    | unit => exact absurd rfl hw
    | _ => rfl
  have h1 : v ≠ .unit := by rintro rfl; cases hv
  have h2 : v' ≠ .unit := by rintro rfl; cases hv
  rw [key v h1] at ha
  obtain ⟨b, hb, -⟩ := Outcome.map_eq_ok.1 ha
  rw [key v' h2, h v v' b hb hv]
  rfl

theorem readAll_replaced {α : Type} {de : Content → Outcome Unit α} {v v' : Content}
    (hp : ∀ a, de v = .ok a → de v' = .panic) {b a : List Content} {r : List α} (h : readAll de (b ++ v :: a) = .ok r) :
    readAll de (b ++ v' :: a) = .panic := by
  induction b generalizing r with
  | nil =>
    obtain ⟨x, hx, -⟩ := Outcome.bind_eq_ok.1 h
    exact bind_panic.2 (.inl (hp x hx))
  | cons w b ih =>
    obtain ⟨x, hx, h⟩ := Outcome.bind_eq_ok.1 h
    obtain ⟨y, hy, -⟩ := Outcome.map_eq_ok.1 h
    exact bind_panic.2 (.inr ⟨x, hx, map_panic.2 (ih hy)⟩)

theorem set_at {α : Type} [RustEq α] {c : Codec α} {p : List Step} {t : Str} (h : PanicsAt p t c) :
    PanicsAt (.item :: p) t (set c) := by
  intro v v' r hr hv
  cases hv with
  | item hv =>
    obtain ⟨x, hx, -⟩ := Outcome.map_eq_ok.1 hr
    exact map_panic.2 (readAll_replaced (fun a ha => h _ _ a ha hv) hx)

theorem readEntries_replaced {α : Type} {key : Str → Option Str} {de : Content → Outcome Unit α} {k : Str} {v v' : Content}
    (hp : ∀ a, de v = .ok a → de v' = .panic) {b a : List (Str × Content)} {r : List (Str × α)}
    (h : readEntries key de (b ++ (k, v) :: a) = .ok r) : readEntries key de (b ++ (k, v') :: a) = .panic := by
  induction b generalizing r with
  | nil =>
    obtain ⟨x, hx, h⟩ := Outcome.bind_eq_ok.1 h
    obtain ⟨y, hy, -⟩ := Outcome.bind_eq_ok.1 h
    exact bind_panic.2 (.inr ⟨x, hx, bind_panic.2 (.inl (hp y hy))⟩)
  | cons w b ih =>
    obtain ⟨x, hx, h⟩ := Outcome.bind_eq_ok.1 h
    obtain ⟨y, hy, h⟩ := Outcome.bind_eq_ok.1 h
    obtain ⟨z, hz, -⟩ := Outcome.map_eq_ok.1 h
    exact bind_panic.2 (.inr ⟨x, hx, bind_panic.2 (.inr ⟨y, hy, map_panic.2 (ih hz)⟩)⟩)

theorem map_at {α : Type} {k : Key} {c : Codec α} {p : List Step} {t : Str} (h : PanicsAt p t c) :
    PanicsAt (.anyKey :: p) t (map k c) := by
  intro v v' r hr hv
  cases hv with
  | anyKey hv =>
    obtain ⟨x, hx, -⟩ := Outcome.map_eq_ok.1 hr
    obtain ⟨es, h1, h2⟩ := Outcome.bind_eq_ok.1 hx
    have h1 := entriesOf_iff.1 (Outcome.ofOption_eq_ok.1 h1)
    obtain ⟨b, x, a, rfl, rfl, rfl, rfl⟩ := split_mapping (Content.map.inj h1)
    change ((Outcome.ofOption (entriesOf _)).bind (readEntries k.parse c.de)).map IndexMap.collect = .panic
    rw [mapping_append, entriesOf_mapping]
    exact map_panic.2 (readEntries_replaced (fun a ha => h _ _ a ha hv) h2)

theorem duration_at {t : Str} (h : durationParse t = .panic) : PanicsAt [] t duration := by
  intro v v' a _ hv
  cases hv
  change deserializeDuration (.str t) = .panic
  simp [deserializeDuration, h]

theorem port_at {E : Env} {t : Str} (h : ShortPort.fromStr (readIp E) t = .panic) :
    PanicsAt [] t (shortOrLong (shortPort E) (struct (Structs.port E))) := by
  intro v v' a _ hv
  cases hv
  refine map_panic.2 ?_
  change deserializeFromStrOrU16 ShortPort.ofU16 (ShortPort.fromStr (readIp E)) (.str t) = .panic
  simp [deserializeFromStrOrU16, h]

theorem step_replaced {s s' : HealthState} {k : String} (hk : [.key k] ∈ healthcheckTimes) {v : Content} {t : Str}
    (hs : s.step (k.toList, v) = .ok s') (ht : durationParse t = .panic) : s.step (k.toList, .str t) = .panic := by
  have hd : ∀ {o : Option Duration} {x}, durationOnce o v = .ok x → durationOnce o (.str t) = .panic := by
    intro o x h
    unfold durationOnce at h ⊢
    split at h
    · cases h
    · rename_i ho
      simp [ho, deserializeDuration, ht]
  simp only [healthcheckTimes, List.mem_cons, List.cons.injEq, Step.key.injEq, and_true, List.not_mem_nil, or_false] at hk
  rcases hk with rfl | rfl | rfl | rfl
  · simp only [HealthState.step, reduceCtorEq, String.toList_inj, String.reduceEq, if_false, if_true] at hs ⊢
    split at hs
    · rw [hd ‹_›]
    · cases hs
    · cases hs
  · simp only [HealthState.step, reduceCtorEq, String.toList_inj, String.reduceEq, if_false, if_true] at hs ⊢
    split at hs
    · rw [hd ‹_›]
    · cases hs
    · cases hs
  · simp only [HealthState.step, reduceCtorEq, String.toList_inj, String.reduceEq, if_false, if_true] at hs ⊢
    split at hs
    · rw [hd ‹_›]
    · cases hs
    · cases hs
  · simp only [HealthState.step, reduceCtorEq, String.toList_inj, String.reduceEq, if_false, if_true] at hs ⊢
    split at hs
    · rw [hd ‹_›]
    · cases hs
    · cases hs

theorem run_replaced {s s' : HealthState} {k : String} (hk : [.key k] ∈ healthcheckTimes) {v : Content} {t : Str}
    {b a : List (Str × Content)} (hs : s.run (b ++ (k.toList, v) :: a) = .ok s') (ht : durationParse t = .panic) :
    s.run (b ++ (k.toList, .str t) :: a) = .panic := by
  induction b generalizing s with
  | nil =>
    rw [List.nil_append, HealthState.run] at hs ⊢
    split at hs
    · rw [step_replaced hk ‹_› ht]
    · cases hs
    · cases hs
  | cons e b ih =>
    rw [List.cons_append, HealthState.run] at hs ⊢
    split at hs
    · exact ih hs
    · cases hs
    · cases hs

theorem healthcheck_at {p : List Step} (hp : p ∈ healthcheckTimes) {t : Str} (ht : durationParse t = .panic) :
    PanicsAt p t healthcheck := by
  intro v v' r hr hv
  have : ∃ k, p = [.key k] := by
    simp only [healthcheckTimes, List.mem_cons, List.not_mem_nil, or_false] at hp
    rcases hp with rfl | rfl | rfl | rfl <;> exact ⟨_, rfl⟩
  obtain ⟨k, rfl⟩ := this
  cases hv with
  | @key _ _ v v' before after hv =>
    cases hv
    change Healthcheck.deserialize (.map (before ++ (.str k.toList, v) :: after)) = .ok r at hr
    change Healthcheck.deserialize (.map (before ++ (.str k.toList, .str t) :: after)) = .panic
    simp only [Healthcheck.deserialize] at hr ⊢
    split at hr
    · cases hr
    · rename_i es hes
      rw [stringKeys_iff] at hes
      obtain ⟨b, x, a, rfl, hx, rfl, rfl⟩ := split_mapping hes
      cases hx
      rw [(stringKeys_iff (es := b ++ (k.toList, .str t) :: a)).2 (by simp)]
      split at hr
      · simp only [run_replaced hp ‹_› ht]
      · cases hr
      · cases hr

theorem field_at {is : List Item} (hn : (ownKeys is).Nodup) (n : Nat) {f : Field} (hf : is[n]? = some (.field f)) {k : String}
    (hk : f.key = k.toList) {p : List Step} {t : Str} (h : PanicsAt p t f.codec) : PanicsAt (.key k :: p) t (struct is) :=
  struct_at hn (List.mem_of_getElem? hf) hk h

theorem mem_of_under {k : String} {q : List Step} {ps : List (List Step)} (h : q ∈ under k ps) :
    ∃ p ∈ ps, q = .key k :: p := by
  obtain ⟨p, hp, rfl⟩ := List.mem_map.1 h
  exact ⟨p, hp, rfl⟩

theorem restartPolicy_at {p : List Step} (hp : p ∈ restartPolicyTimes) {t : Str} (ht : durationParse t = .panic) :
    PanicsAt p t (struct restartPolicy) := by
  have hn : (ownKeys restartPolicy).Nodup := table_good.distinct
  simp only [restartPolicyTimes, List.mem_cons, List.not_mem_nil, or_false] at hp
  rcases hp with rfl | rfl
  · exact field_at hn 1 rfl rfl (duration_at ht)
  · exact field_at hn 3 rfl rfl (duration_at ht)

theorem updateOrRollbackConfig_at {p : List Step} (hp : p ∈ updateTimes) {t : Str} (ht : durationParse t = .panic) :
    PanicsAt p t (struct updateOrRollbackConfig) := by
  have hn : (ownKeys updateOrRollbackConfig).Nodup := table_good.distinct
  simp only [updateTimes, List.mem_cons, List.not_mem_nil, or_false] at hp
  rcases hp with rfl | rfl
  · exact field_at hn 1 rfl rfl (duration_at ht)
  · exact field_at hn 3 rfl rfl (duration_at ht)

theorem option_at_ne {α : Type} {c : Codec α} {p : List Step} {t : Str} (hp : p ≠ []) (h : PanicsAt p t c) :
    PanicsAt p t (option c) := by
  cases p with
  | nil => exact absurd rfl hp
  | cons s p => exact option_at h

theorem deploy_at {E : Env} {p : List Step} (hp : p ∈ deployTimes) {t : Str} (ht : durationParse t = .panic) :
    PanicsAt p t (struct (deploy E)) := by
  have hn : (ownKeys (deploy E)).Nodup := table_good.distinct
  simp only [deployTimes, List.mem_append] at hp
  rcases hp with (hp | hp) | hp
  · obtain ⟨p, hq, rfl⟩ := mem_of_under hp
    exact field_at hn 6 rfl rfl (option_at_ne (by rintro rfl; revert hq; decide) (restartPolicy_at hq ht))
  · obtain ⟨p, hq, rfl⟩ := mem_of_under hp
    exact field_at hn 8 rfl rfl (option_at_ne (by rintro rfl; revert hq; decide) (updateOrRollbackConfig_at hq ht))
  · obtain ⟨p, hq, rfl⟩ := mem_of_under hp
    exact field_at hn 7 rfl rfl (option_at_ne (by rintro rfl; revert hq; decide) (updateOrRollbackConfig_at hq ht))

theorem service_at {E : Env} {p : List Step} {t : Str} (h : Delicate E serviceTimes servicePorts p t) :
    PanicsAt p t (struct (service E)) := by
  have hn : (ownKeys (service E)).Nodup := table_good.distinct
  rcases h with ⟨hp, ht⟩ | ⟨hp, ht⟩
  · simp only [serviceTimes, List.mem_append] at hp
    rcases hp with (hp | hp) | hp
    · simp only [List.mem_cons, List.not_mem_nil, or_false] at hp
      rcases hp with rfl | rfl | rfl
      · exact field_at hn 8 rfl rfl (duration_at ht)
      · exact field_at hn 9 rfl rfl (duration_at ht)
      · exact field_at hn 71 rfl rfl (duration_at ht)
    · obtain ⟨p, hq, rfl⟩ := mem_of_under hp
      exact field_at hn 38 rfl rfl (option_at_ne (by rintro rfl; revert hq; decide) (healthcheck_at hq ht))
    · obtain ⟨p, hq, rfl⟩ := mem_of_under hp
      exact field_at hn 21 rfl rfl (option_at_ne (by rintro rfl; revert hq; decide) (deploy_at hq ht))
  · simp only [servicePorts, List.mem_cons, List.not_mem_nil, or_false] at hp
    subst hp
    exact field_at hn 59 rfl rfl (@set_at _ (portsEq E) _ _ _ (port_at ht))

theorem compose_at {E : Env} {p : List Step} {t : Str} (h : Delicate E (inServices serviceTimes) (inServices servicePorts) p t) :
    PanicsAt p t (struct (compose E)) := by
  have hn : (ownKeys (compose E)).Nodup := table_good.distinct
  have : ∃ q, p = .key "services" :: .anyKey :: q ∧ Delicate E serviceTimes servicePorts q t := by
    rcases h with ⟨hp, ht⟩ | ⟨hp, ht⟩
    · obtain ⟨q, hq, rfl⟩ := List.mem_map.1 hp
      exact ⟨q, rfl, .inl ⟨hq, ht⟩⟩
    · obtain ⟨q, hq, rfl⟩ := List.mem_map.1 hp
      exact ⟨q, rfl, .inr ⟨hq, ht⟩⟩
  obtain ⟨q, rfl, hq⟩ := this
  exact field_at hn 3 rfl rfl (map_at (service_at hq))

end Proofs
