import Verif.Props.Loaded

/- C96: which service and which name of a document an error of validation names. -/

namespace Props
open Rust Compose Compose.Derive Spec Spec.Schemas Spec.Document Proofs.Loaded

theorem isFirst_filter {α : Type} {p : α → Prop} {q : α → Bool} (hq : ∀ z, p z → q z = true) {x : α} {l : List α}
    (h : IsFirst p x (l.filter q)) : IsFirst p x l := by
  induction l with
  | nil => exact h
  | cons y l ih =>
    by_cases hy : q y = true
    · rw [List.filter_cons_of_pos hy] at h
      obtain ⟨b, a, h1, h2, h3⟩ := h
      cases b with
      | nil => cases h1; exact ⟨[], l, rfl, h2, by simp⟩
      | cons z b =>
        rw [List.cons_append, List.cons.injEq] at h1
        obtain ⟨rfl, h1⟩ := h1
        obtain ⟨b', a', h4, h5, h6⟩ := ih ⟨b, a, h1, h2, fun y hy => h3 y (List.mem_cons_of_mem _ hy)⟩
        refine ⟨y :: b', a', by rw [h4]; rfl, h5, fun z hz => ?_⟩
        rcases List.mem_cons.1 hz with rfl | hz
        · exact h3 z List.mem_cons_self
        · exact h6 z hz
    · rw [List.filter_cons_of_neg hy] at h
      obtain ⟨b, a, h4, h5, h6⟩ := ih h
      refine ⟨y :: b, a, by rw [h4]; rfl, h5, fun z hz => ?_⟩
      rcases List.mem_cons.1 hz with rfl | hz
      · exact fun hp => hy (hq z hp)
      · exact h6 z hz

theorem isFirst_cons {α : Type} {p : α → Prop} {x y : α} {l l' : List α} (hi : ¬ p y → IsFirst p x l → IsFirst p x l')
    (h : IsFirst p x (y :: l)) : IsFirst p x (y :: l') := by
  obtain ⟨b, a, h1, h2, h3⟩ := h
  cases b with
  | nil => cases h1; exact ⟨[], l', rfl, h2, by simp⟩
  | cons z b =>
    rw [List.cons_append, List.cons.injEq] at h1
    obtain ⟨rfl, h1⟩ := h1
    obtain ⟨b', a', h4, h5, h6⟩ := hi (h3 y List.mem_cons_self) ⟨b, a, h1, h2, fun y hy => h3 y (List.mem_cons_of_mem _ hy)⟩
    refine ⟨y :: b', a', by rw [h4]; rfl, h5, fun z hz => ?_⟩
    rcases List.mem_cons.1 hz with rfl | hz
    · exact h3 z List.mem_cons_self
    · exact h6 z hz

theorem isFirst_firsts {α : Type} [DecidableEq α] {p : α → Prop} {x : α} {l : List α} (h : IsFirst p x (firsts l)) :
    IsFirst p x l := by
  induction l with
  | nil => exact h
  | cons y l ih =>
    rw [firsts] at h
    exact isFirst_cons (fun hy h => ih (isFirst_filter (fun z hz => by simp; rintro rfl; exact hy hz) h)) h

theorem isFirst_firstsBy {α : Type} {p : α → Prop} {x : α} : ∀ (n : Nat) (l : List α), l.length ≤ n →
    IsFirst p x (Meaning.firstsBy Eq l) → IsFirst p x l
  | _, [], _, h => by rw [Meaning.firstsBy] at h; exact h
  | 0, _ :: _, hn, _ => absurd hn (by simp)
  | n + 1, y :: l, hn, h => by
    classical
    rw [Meaning.firstsBy] at h
    refine isFirst_cons (fun hy h => isFirst_filter (q := fun z => decide (¬ z = y)) (fun z hz => ?_)
      (isFirst_firstsBy n _ ((List.length_filter_le _ _).trans (Nat.le_of_succ_le_succ hn)) h)) h
    simp; rintro rfl; exact hy hz

/-- The first of some pairs, by their keys. -/
theorem isFirst_keys {α β : Type} {p : α × β → Prop} {s : α × β} {l : List (α × β)} (hn : (l.map Prod.fst).Nodup)
    (h : IsFirst p s l) : IsFirst (fun k => ∃ x, (k, x) ∈ l ∧ p (k, x)) s.1 (l.map Prod.fst) := by
  obtain ⟨b, a, rfl, h2, h3⟩ := h
  refine ⟨b.map Prod.fst, a.map Prod.fst, by simp, ⟨s.2, by simp, h2⟩, ?_⟩
  rintro k hk ⟨x, hx, hp⟩
  obtain ⟨y, hy, rfl⟩ := List.mem_map.1 hk
  have : (y.1, x) = y := List.inj_on_of_nodup_map hn hx (by simp [hy]) rfl
  exact h3 y hy (this ▸ hp)

theorem isFirst_congr {α : Type} {p q : α → Prop} {x : α} {l : List α} (h : ∀ x, p x ↔ q x) (hf : IsFirst p x l) : IsFirst q x l := by
  obtain ⟨b, a, h1, h2, h3⟩ := hf
  exact ⟨b, a, h1, (h x).1 h2, fun y hy hq => h3 y hy ((h y).2 hq)⟩

/-- The keys of a mapping come first in the order of the mapping. -/
theorem entries_first {α : Type} {K : Str → Prop} {m : Meaning α} {v : Content} {l : List (Str × α)}
    (h : Meaning.entries K m v l) {p : Str → Prop} {k : Str} (hf : IsFirst p k (l.map Prod.fst)) :
    ∃ es, Entries v es ∧ IsFirst p k (es.map Prod.fst) := by
  obtain ⟨es, all, h1, h2, h3⟩ := h
  refine ⟨es, h1, ?_⟩
  have hk : all.map Prod.fst = es.map Prod.fst := by
    clear h1 h3
    induction h2 with
    | nil => rfl
    | cons h _ ih => simp [ih, h.2.1]
  rw [← hk]
  have := h3.1
  rw [show l.map Prod.fst = _ from this] at hf
  exact isFirst_firsts hf

/-- The services of a file in the order of the document. -/
theorem file_first (E : Env) {doc : Content} {r : Record (Structs.compose E)}
    (h : (struct (Structs.compose E)).de doc = .ok r) {p : Str → Prop} {k : Str}
    (hf : IsFirst p k ((Load.file E r).services.map Prod.fst)) :
    ∃ services es, At doc "services".toList services ∧ Entries services es ∧ IsFirst p k (es.map Prod.fst) := by
  obtain ⟨es, hes, hst⟩ := (C75_compose E doc r).1 h
  replace hes := entries_of_given (fun h => by cases h) hes
  obtain ⟨version, name, inc, services, networks, volumes, configs, secrets, ext, u⟩ := r
  have hs : (∃ v, given es "services".toList = [v] ∧ Meaning.entries Identifier (Schemas.service E).Means v services) ∨ _ :=
    hst.2.2.2.1
  obtain ⟨v, hv, hent⟩ | ⟨_, hno⟩ := hs
  swap
  · cases hno
  have : (Load.file E (version, name, inc, services, networks, volumes, configs, secrets, ext, u)).services.map Prod.fst =
      List.map Prod.fst (services : List (Str × Record (Structs.service E))) := by
    exact List.map_map
  rw [this] at hf
  obtain ⟨ses, h1, h2⟩ := entries_first hent hf
  exact ⟨v, ses, (at_given hes hv).2 rfl, h1, h2⟩

theorem reportsFirst (E : Env) {doc : Content} {r : Record (Structs.compose E)}
    (h : (struct (Structs.compose E)).de doc = .ok r) {lists : Content → List Str → Prop} {names : Content → Str → Prop}
    {section_ : String} {kind : ResourceKind}
    {uses : Service NetworkMode (Record (Structs.serviceNetwork E)) Content → List Str} {declared : Str → Prop}
    {answer : Except ValidationError Unit} (hc : ChecksUse (Load.file E r).services uses declared kind answer)
    (hu : ∀ c es sr, Entries c es → ServiceFields E c es sr → ∀ n, names c n ↔ n ∈ uses (Load.service E sr))
    (hn : ∀ c l n, lists c l → n ∈ l → names c n)
    (hl : ∀ c es sr, Entries c es → ServiceFields E c es sr → ∀ p n, IsFirst p n (uses (Load.service E sr)) →
      ∃ l, lists c l ∧ IsFirst p n l)
    (hd : ∀ n, Declares doc section_ n ↔ declared n) : ReportsFirst doc lists section_ answer := by
  obtain ⟨h1, h2, h3⟩ := file_services E h
  intro e he
  obtain ⟨s, name, hs, hname, rfl⟩ := (hc.2 e).1 he
  obtain ⟨services, es, hat, hes, hf⟩ := file_first E h (isFirst_keys h3 hs)
  obtain ⟨b, a, hba, -, hb⟩ := hf
  obtain ⟨before, rest, rfl, rfl, hrest⟩ := List.map_eq_append_iff.1 hba
  obtain ⟨⟨k, x⟩, after, rfl, rfl, rfl⟩ := List.map_eq_cons_iff.1 hrest
  obtain ⟨c, ces, sr, ⟨services', hat', hc'⟩, hces, hsr, ⟨f⟩⟩ := h1 s (by obtain ⟨b, a, hab, -⟩ := hs; rw [hab]; simp)
  rw [hsr] at hname
  obtain ⟨l, hl1, ⟨a', b', rfl, hnd, ha⟩⟩ := hl c ces sr hces f _ _ hname
  obtain rfl := at_unique hat hat'
  refine ⟨services, before, _, x, after, c, a', b', hat, hes, rfl, ?_, hc', hl1, fun n hn => ?_, fun h => hnd ((hd _).1 h)⟩
  · intro s' hs' c' l' hs'c hl' n hnl
    obtain ⟨ces', sr', hmem, hces', ⟨f'⟩⟩ := h2 s' c' ⟨services, hat, hs'c⟩
    by_contra hno
    exact hb s' hs' ⟨_, hmem, n, (hu c' ces' sr' hces' f' n).1 (hn c' l' n hl' hnl), fun h => hno ((hd n).2 h)⟩
  · exact (hd n).2 (not_not.1 (ha n hn))

theorem items_forall {α : Type} {m : Meaning α} {vs : List Content} {l : List α} (h : Meaning.items m (.seq vs) l) :
    List.Forall₂ m vs l := by
  obtain ⟨vs', h1, h2⟩ := h
  cases h1
  exact h2

theorem forall₂_seq {α : Type} {f : α → Content} {R : Content → α → Prop} {vs : List Content} {l : List α} (hR : ∀ v x, R v x → v = f x)
    (h : List.Forall₂ R vs l) : vs = l.map f := by
  induction h with
  | nil => rfl
  | cons h _ ih => rw [hR _ _ h, ih]; rfl

theorem networks_first (E : Env) {c : Content} {es : List (Str × Content)} {s : Record (Structs.service E)}
    (hc : Entries c es) (f : ServiceFields E c es s) (p : Str → Prop) (n : Str) (hf : IsFirst p n (usedNetworks (Load.service E s))) :
    ∃ l, ListsNetworks c l ∧ IsFirst p n l := by
  have hnil : ¬ IsFirst p n [] := by rintro ⟨b, a, h, -⟩; simp at h
  rw [f.load] at hf
  rcases f.hnetworks with ⟨hn, ho⟩ | ⟨x, ⟨g, hg, ⟨v, hv, hd⟩, hother⟩, ho⟩
  · rw [ho] at hf
    exact absurd hf hnil
  · rw [ho] at hf
    simp only [networkFields, List.mem_cons, List.not_mem_nil, or_false] at hg
    rcases hg with rfl | rfl
    · obtain ⟨t, m, _, _, rfl⟩ := hd
      exact absurd hf hnil
    · obtain ⟨y, hy, rfl⟩ := hd
      have hat : At c "networks".toList v := (at_given hc hv.1).2 rfl
      rcases hy with ⟨l, _, hl, rfl⟩ | ⟨l, hnm, hl, rfl⟩
      · simp only [usedNetworks, Option.map_some, Load.networkConfig] at hf
        obtain ⟨ses, h1, h2⟩ := entries_first hl hf
        exact ⟨_, ⟨v, hat, .inr ⟨ses, h1, rfl⟩⟩, h2⟩
      · simp only [usedNetworks, Option.map_some, Load.networkConfig] at hf
        obtain ⟨all, hall, rfl⟩ := hl
        obtain ⟨vs, rfl, -, -⟩ := items_mem hall
        refine ⟨all, ⟨_, hat, .inl ?_⟩, isFirst_firstsBy _ all (le_refl _) hf⟩
        rw [forall₂_seq (f := Content.str) (fun v x h => h.1) (items_forall hall)]

theorem configs_first {key : String} {c : Content} {es : List (Str × Content)} (hc : Entries c es)
    {l : List (ShortOrLong Str (Record Structs.configOrSecret))}
    (h : (∃ v, given es key.toList = [v] ∧ configsOrSecrets v l) ∨ (given es key.toList = [] ∧ some [] = some l)) (p : Str → Prop) (n : Str)
    (hf : IsFirst p n ((l.map (Load.longForm Load.configOrSecret)).map entryName)) :
    ∃ l, ListsIn key c l ∧ IsFirst p n l := by
  rcases h with ⟨v, hv, hl⟩ | ⟨hn, hl⟩
  · obtain ⟨vs, rfl, -, -⟩ := items_mem hl
    refine ⟨_, ⟨vs, (at_given hc hv).2 rfl, ?_⟩, hf⟩
    rw [List.map_map, List.forall₂_map_right_iff]
    refine (items_forall hl).imp ?_
    rintro item x (⟨y, ⟨es', rfl⟩, ⟨ms, hms, hst⟩, rfl⟩ | ⟨y, _, ⟨rfl, _⟩, rfl⟩)
    · rcases hst.1 with ⟨w, hw, hid, _⟩ | ⟨_, hno⟩
      · refine .inr ((at_given (entries_of_given (fun h => by cases h) hms) hw).2 ?_)
        rw [hid]; rfl
      · cases hno
    · exact .inl rfl
  · cases hl
    obtain ⟨b, a, h, -⟩ := hf
    simp at h

theorem listsNetworks_names {c : Content} {l : List Str} {n : Str} (h : ListsNetworks c l) (hn : n ∈ l) : NamesNetwork c n := by
  obtain ⟨v, hv, rfl | ⟨es, he, rfl⟩⟩ := h
  · exact ⟨_, hv, .inl ⟨_, rfl, List.mem_map_of_mem hn⟩⟩
  · refine ⟨v, hv, .inr ?_⟩
    obtain ⟨e, hm, rfl⟩ := List.mem_map.1 hn
    have : ∃ x, lastValue es e.1 = some x := by
      rw [lastValue_eq]
      cases hl : ((es.filter fun e' => e'.1 = e.1).map (·.2)).getLast? with
      | some x => exact ⟨x, rfl⟩
      | none =>
        rw [List.getLast?_eq_none_iff, List.map_eq_nil_iff, List.filter_eq_nil_iff] at hl
        exact absurd (decide_eq_true rfl) (hl e hm)
    obtain ⟨x, hx⟩ := this
    exact ⟨x, es, he, hx⟩

theorem listsIn_names {key : String} {c : Content} {l : List Str} {n : Str} (h : ListsIn key c l) (hn : n ∈ l) : NamesIn key c n := by
  obtain ⟨vs, hv, hf⟩ := h
  have : ∃ item ∈ vs, (item = .str n ∨ At item "source".toList (.str n)) := by
    clear hv
    induction hf with
    | nil => simp at hn
    | cons h _ ih =>
      rcases List.mem_cons.1 hn with rfl | hn
      · exact ⟨_, List.mem_cons_self, h⟩
      · obtain ⟨i, hi, h'⟩ := ih hn
        exact ⟨i, List.mem_cons_of_mem _ hi, h'⟩
  obtain ⟨item, hm, hi⟩ := this
  exact ⟨vs, item, hv, hm, hi⟩

/-- C96: an error of `validate_networks` names the first service of the document with a network that is not declared, and the first
such network of it. -/
theorem C96_first_network (E : Env) (doc : Content) (r : Record (Structs.compose E))
    (h : (struct (Structs.compose E)).de doc = .ok r) :
    ReportsFirst doc ListsNetworks "networks" (Load.file E r).validateNetworks :=
  reportsFirst E h (C23_validate_networks _) (fun _ _ _ hes f n => service_networks E hes f n)
    (fun _ _ _ => listsNetworks_names) (fun _ _ _ hes f p n => networks_first E hes f p n) (fun n => (file_sections E h n).1)

/-- C96: the same for configs. -/
theorem C96_first_config (E : Env) (doc : Content) (r : Record (Structs.compose E))
    (h : (struct (Structs.compose E)).de doc = .ok r) :
    ReportsFirst doc (ListsIn "configs") "configs" (Load.file E r).validateConfigs :=
  reportsFirst E h (C24_validate_configs _)
    (fun c es sr hes f n => by rw [f.load]; exact configs_mem hes f.hconfigs n) (fun _ _ _ => listsIn_names)
    (fun c es sr hes f p n hf => by rw [f.load] at hf; exact configs_first hes f.hconfigs p n hf)
    (fun n => (file_sections E h n).2.2.1)

/-- C96: the same for secrets. -/
theorem C96_first_secret (E : Env) (doc : Content) (r : Record (Structs.compose E))
    (h : (struct (Structs.compose E)).de doc = .ok r) :
    ReportsFirst doc (ListsIn "secrets") "secrets" (Load.file E r).validateSecrets :=
  reportsFirst E h (C24_validate_secrets _)
    (fun c es sr hes f n => by rw [f.load]; exact configs_mem hes f.hsecrets n) (fun _ _ _ => listsIn_names)
    (fun c es sr hes f p n hf => by rw [f.load] at hf; exact configs_first hes f.hsecrets p n hf)
    (fun n => (file_sections E h n).2.2.2)

theorem isFirst_unique {α : Type} {p : α → Prop} {x y : α} {l : List α} (h : IsFirst p x l) (h' : IsFirst p y l) : x = y := by
  obtain ⟨b, a, rfl, h1, h2⟩ := h
  obtain ⟨b', a', h3, h4, h5⟩ := h'
  rcases List.append_eq_append_iff.1 h3 with ⟨w, rfl, h6⟩ | ⟨w, rfl, h6⟩
  · cases w with
    | nil => exact (List.cons.inj h6).1
    | cons z w => rw [List.cons_append] at h6; cases h6; exact absurd h1 (h5 x (by simp))
  · cases w with
    | nil => exact (List.cons.inj h6).1.symm
    | cons z w => rw [List.cons_append] at h6; cases h6; exact absurd h4 (h2 y (by simp))

/-- A place in a list of lists. -/
theorem flatMap_split {α β : Type} {g : α → List β} {l : List α} {x : List β} {v : β} {y : List β}
    (h : l.flatMap g = x ++ v :: y) : ∃ b s a x' y', l = b ++ s :: a ∧ g s = x' ++ v :: y' ∧ x = b.flatMap g ++ x' := by
  induction l generalizing x with
  | nil => simp at h
  | cons z l ih =>
    rw [List.flatMap_cons] at h
    rcases List.append_eq_append_iff.1 h with ⟨w, h1, h2⟩ | ⟨w, h1, h2⟩
    · obtain ⟨b, s, a, x', y', rfl, h4, h5⟩ := ih h2
      exact ⟨z :: b, s, a, x', y', rfl, h4, by rw [h1, h5, List.flatMap_cons, List.append_assoc]⟩
    · cases w with
      | nil =>
        obtain ⟨b, s, a, x', y', rfl, h4, h5⟩ := ih (x := []) h2.symm
        refine ⟨z :: b, s, a, x', y', rfl, h4, ?_⟩
        rw [List.append_nil] at h1
        rw [List.flatMap_cons, List.append_assoc, ← h5, List.append_nil, h1]
      | cons u w =>
        cases h2
        exact ⟨[], z, l, x, w, rfl, h1, rfl⟩

/-- C96: an error of `validate_volumes` names a volume that is not declared, at the first service of the document at which one
is shared. -/
theorem C96_first_volume (E : Env) (doc : Content) (r : Record (Structs.compose E))
    (h : (struct (Structs.compose E)).de doc = .ok r) :
    ReportsFirstShared doc (Load.file E r).validateVolumes := by
  obtain ⟨h1, h2, hnd⟩ := file_services E h
  have hdecl := fun n => (file_sections E h n).2.1
  intro e he
  obtain ⟨ms, v, ms', hm, ⟨hv, hvd⟩, hfirst, rfl⟩ := (C25_validate_volumes_error _ e).1 he
  obtain ⟨b, s, a, x', y', hl, hs, rfl⟩ := flatMap_split hm
  have hndb := hnd
  rw [hl, List.map_append, List.map_cons, List.nodup_append] at hndb
  obtain ⟨hb, hsa, hdis⟩ := hndb
  -- the service in the document
  have hf : IsFirst (fun k => k ∉ b.map Prod.fst) s.1 ((Load.file E r).services.map Prod.fst) := by
    refine ⟨b.map Prod.fst, a.map Prod.fst, by rw [hl]; simp, ?_, fun k hk hn => hn hk⟩
    intro hsb
    exact hdis _ hsb _ List.mem_cons_self rfl
  obtain ⟨services, es, hat, hes, bk, ak, hba, hsb, hbk⟩ := file_first E h hf
  obtain ⟨before, rest, rfl, rfl, hrest⟩ := List.map_eq_append_iff.1 hba
  obtain ⟨⟨k, x⟩, after, rfl, hk, rfl⟩ := List.map_eq_cons_iff.1 hrest
  obtain ⟨c, ces, sr, ⟨services', hat', hc'⟩, hces, hsr, ⟨f⟩⟩ := h1 s (by rw [hl]; simp)
  obtain rfl := at_unique hat hat'
  -- the services before it
  have hmem : ∀ s' ∈ before.map (·.1), ∀ c', At services s' c' → ∃ ces' sr', (s', Load.service E sr') ∈ b ∧ Entries c' ces' ∧
      Nonempty (ServiceFields E c' ces' sr') := by
    intro s' hs' c' hc'
    obtain ⟨ces', sr', hin, hces', hf'⟩ := h2 s' c' ⟨services, hat, hc'⟩
    refine ⟨ces', sr', ?_, hces', hf'⟩
    have hsb' : s' ∈ b.map Prod.fst := by have := hbk s' hs'; simpa using this
    obtain ⟨z, hz, hzs⟩ := List.mem_map.1 hsb'
    have : z = (s', Load.service E sr') := List.inj_on_of_nodup_map hnd (by rw [hl]; simp [hz]) hin hzs
    exact this ▸ hz
  have hmounts : MountsVolume c v := by
    rw [service_volumes E hces f, ← hsr]
    show v ∈ mountedVolumes s.2
    rw [hs]; simp
  refine ⟨services, before, s.1, x, after, c, hat, ?_, ?_, hc', fun hd => hvd ((hdecl v).1 hd), hmounts, ?_, ?_⟩
  · rw [← hk]; exact hes
  · intro hin
    exact hbk s.1 hin hsb
  · rcases List.mem_append.1 hv with hv | hv
    · left
      obtain ⟨s', hs', hvs'⟩ := List.mem_flatMap.1 hv
      obtain ⟨c', ces', sr', ⟨services', hat', hc''⟩, hces', hsr', ⟨f'⟩⟩ := h1 s' (by rw [hl]; simp [hs'])
      obtain rfl := at_unique hat hat'
      refine ⟨s'.1, ?_, c', hc'', (service_volumes E hces' f' v).2 (hsr' ▸ hvs')⟩
      by_contra hnot
      obtain ⟨b1, b2, rfl⟩ := List.append_of_mem hs'
      have hp : IsFirst (fun k => k = s.1 ∨ k = s'.1) s'.1 ((Load.file E r).services.map Prod.fst) := by
        refine ⟨b1.map Prod.fst, (b2 ++ s :: a).map Prod.fst, by rw [hl]; simp, .inr rfl, ?_⟩
        rintro k hk (rfl | rfl)
        · exact hdis _ (by rw [List.map_append]; exact List.mem_append_left _ hk) _ List.mem_cons_self rfl
        · rw [List.map_append, List.map_cons, List.nodup_append] at hb
          exact hb.2.2 _ hk _ List.mem_cons_self rfl
      obtain ⟨services', es', hat', hes', hp'⟩ := file_first E h hp
      obtain rfl := at_unique hat hat'
      obtain rfl := entries_inj hes hes'
      have hq : IsFirst (fun k => k = s.1 ∨ k = s'.1) s.1 ((before ++ (k, x) :: after).map Prod.fst) := by
        refine ⟨before.map Prod.fst, after.map Prod.fst, by rw [← hk]; simp, .inl rfl, ?_⟩
        rintro k' hk' (rfl | rfl)
        · exact hbk _ hk' hsb
        · exact hnot hk'
      have := isFirst_unique hp' hq
      exact hdis _ (List.mem_map_of_mem hs') _ List.mem_cons_self this
    · right
      refine service_twice E hces f v ?_
      rw [← hsr]
      show 2 ≤ (mountedVolumes s.2).count v
      rw [hs, two_le_count_iff]
      exact ⟨x', y', rfl, hv⟩
  · intro n hn s1 hs1 c1 hc1
    have hno : ¬ 2 ≤ (b.flatMap fun s => mountedVolumes s.2).count n := by
      rw [two_le_count_iff]
      rintro ⟨p, q, hpq, hnp⟩
      exact hfirst p n (q ++ x') (by rw [hpq]; simp) ⟨hnp, fun hd => hn ((hdecl n).2 hd)⟩
    rw [two_le_count_mentions b n hb] at hno
    obtain ⟨ces1, sr1, hin1, hces1, ⟨f1⟩⟩ := hmem s1 hs1 c1 hc1
    refine ⟨fun s2 hs2 c2 hne hc2 hboth => ?_, fun path path' hne htwo => ?_⟩
    · obtain ⟨ces2, sr2, hin2, hces2, ⟨f2⟩⟩ := hmem s2 hs2 c2 hc2
      exact hno (.inl ⟨_, hin1, _, hin2, hne, (service_volumes E hces1 f1 n).1 hboth.1, (service_volumes E hces2 f2 n).1 hboth.2⟩)
    · exact hno (.inr ⟨_, hin1, service_two_paths E hces1 f1 n htwo hne⟩)

/-- Two services with networks that are not declared: the first one is named, with its first such network. -/
def sampleCulprits : Content := Derive.mapping
  [("services".toList, Derive.mapping
      [("db".toList, Derive.mapping [("networks".toList, .seq [.str "back".toList, .str "x".toList, .str "y".toList])]),
        ("web".toList, Derive.mapping [("networks".toList, Derive.mapping [("a".toList, .unit)])])]),
    ("networks".toList, Derive.mapping [("back".toList, .unit)])]

set_option maxRecDepth 10000 in
example : ∃ r, (struct (Structs.compose sampleEnv)).de sampleCulprits = .ok r ∧
    (Load.file sampleEnv r).validateNetworks = .error ⟨some "db".toList, "x".toList, .network⟩ := ⟨_, rfl, rfl⟩

/-- Three services, of which the last two mount a volume that is not declared. -/
def sampleShared : Content := Derive.mapping
  [("services".toList, Derive.mapping
      [("db".toList, Derive.mapping [("volumes".toList, .seq [.str "a:/a".toList])]),
        ("web".toList, Derive.mapping [("volumes".toList, .seq [.str "b:/b".toList, .str "a:/c".toList])]),
        ("log".toList, Derive.mapping [("volumes".toList, .seq [.str "b:/b".toList])])]),
    ("volumes".toList, Derive.mapping [("a".toList, .unit)])]

set_option maxRecDepth 10000 in
example : ∃ r, (struct (Structs.compose sampleEnv)).de sampleShared = .ok r ∧
    (Load.file sampleEnv r).validateVolumes = .error ⟨none, "b".toList, .volume⟩ := ⟨_, rfl, rfl⟩

set_option maxRecDepth 10000 in
/-- The theorems about networks, secrets and configs apply to `sampleUses`, for which two of the checks report an error. -/
example : ∃ r, (struct (Structs.compose sampleEnv)).de sampleUses = .ok r ∧
    (Load.file sampleEnv r).validateNetworks = .error ⟨some "web".toList, "front".toList, .network⟩ ∧
    ReportsFirst sampleUses ListsNetworks "networks" (Load.file sampleEnv r).validateNetworks ∧
    ReportsFirst sampleUses (ListsIn "configs") "configs" (Load.file sampleEnv r).validateConfigs ∧
    ReportsFirst sampleUses (ListsIn "secrets") "secrets" (Load.file sampleEnv r).validateSecrets :=
  ⟨_, rfl, rfl, C96_first_network sampleEnv _ _ rfl, C96_first_config sampleEnv _ _ rfl, C96_first_secret sampleEnv _ _ rfl⟩

end Props
