import Verif.Spec.Validate
import Verif.Props.Volumes
import Mathlib.Data.Nat.Find

/- Properties C23–C27: validation. -/

namespace Props
open Rust Compose Spec

variable {M N V R : Type}

/-- Two services; `web` uses an undeclared network after a declared one. -/
def exampleFile : File Unit Unit Unit Unit where
  services :=
    [("db".toList, { networkConfig := some (.networks (.short ["back".toList])),
                     volumes := [.short ⟨"/var".toList, some ⟨.volume "data".toList, false, none⟩⟩] }),
     ("web".toList, { networkConfig := some (.networks (.long [("back".toList, none), ("front".toList, none)])),
                      volumes := [.long (.volume ⟨some "data".toList, none, { target := "/srv".toList }⟩)],
                      configs := [.long { source := "conf".toList }, .short "other".toList] })]
  networks := [("back".toList, ())]
  configs := [("conf".toList, ())]

theorem containsKey_iff (map : List (Str × R)) (name : Str) : containsKey map name = true ↔ Declared map name := by
  simp [containsKey, Declared]

theorem firstUndefined_ok (map : List (Str × R)) (names : List Str) :
    firstUndefined map names = .ok () ↔ ∀ name ∈ names, Declared map name := by
  induction names with
  | nil => simp [firstUndefined]
  | cons x xs ih =>
    unfold firstUndefined
    by_cases h : containsKey map x = true
    · rw [if_neg (by simp [h]), ih]; simp [(containsKey_iff map x).1 h]
    · rw [if_pos (by simp [h])]
      have := mt (containsKey_iff map x).2 h
      simp [this]

theorem firstUndefined_error (map : List (Str × R)) (names : List Str) (bad : Str) :
    firstUndefined map names = .error bad ↔ IsFirst (fun name => ¬ Declared map name) bad names := by
  induction names with
  | nil => simp [firstUndefined, IsFirst]
  | cons x xs ih =>
    unfold firstUndefined
    by_cases h : containsKey map x = true
    · rw [if_neg (by simp [h]), ih]
      have hd := (containsKey_iff map x).1 h
      constructor
      · rintro ⟨a, b, rfl, h1, h2⟩
        exact ⟨x :: a, b, rfl, h1, by simpa using ⟨hd, by simpa using h2⟩⟩
      · rintro ⟨a, b, heq, h1, h2⟩
        cases a with
        | nil => cases heq; exact absurd hd h1
        | cons y a => cases heq; exact ⟨a, b, rfl, h1, fun z hz => h2 z (by simp [hz])⟩
    · rw [if_pos (by simp [h])]
      have hd := mt (containsKey_iff map x).2 h
      constructor
      · intro he; cases he; exact ⟨[], xs, rfl, hd, by simp⟩
      · rintro ⟨a, b, heq, h1, h2⟩
        cases a with
        | nil => cases heq; rfl
        | cons y a => cases heq; exact absurd hd (h2 x (by simp))

/-- The loop over services answers correctly if the check of one service does. -/
theorem eachService_checks (map : List (Str × R)) (kind : ResourceKind)
    (uses : Service M N V → List Str) (check : Service M N V → Except Str Unit)
    (hcheck : ∀ s, check s = firstUndefined map (uses s)) (services : List (Str × Service M N V)) :
    ChecksUse services uses (Declared map) kind (File.eachService kind check services) := by
  induction services with
  | nil => simp [ChecksUse, File.eachService, IsFirst]
  | cons s services ih =>
    obtain ⟨sname, s⟩ := s
    have hstep : File.eachService kind check ((sname, s) :: services) =
        match firstUndefined map (uses s) with
        | .error resource => .error ⟨some sname, resource, kind⟩
        | .ok () => File.eachService kind check services := by rw [File.eachService, hcheck]; rfl
    match hf : firstUndefined map (uses s) with
    | .error bad =>
      rw [hf] at hstep
      rw [hstep]
      have hbad := (firstUndefined_error _ _ _).1 hf
      obtain ⟨a, b, hab, hb1, hb2⟩ := hbad
      have hmem : bad ∈ uses s := by rw [hab]; simp
      constructor
      · simp only [reduceCtorEq, false_iff]
        intro h; exact hb1 (h (sname, s) (by simp) bad hmem)
      · intro e
        constructor
        · intro he; cases he
          exact ⟨(sname, s), bad, ⟨[], services, rfl, ⟨bad, hmem, hb1⟩, by simp⟩, ⟨a, b, hab, hb1, hb2⟩, rfl⟩
        · rintro ⟨⟨s', svc⟩, name, ⟨a', b', heq, h1, h2⟩, h3, rfl⟩
          cases a' with
          | nil =>
            cases heq
            have := (firstUndefined_error _ _ _).2 h3
            rw [hf] at this; cases this; rfl
          | cons y a' => cases heq; exact absurd ⟨bad, hmem, hb1⟩ (h2 (sname, s) (by simp))
    | .ok () =>
      rw [hf] at hstep
      simp only at hstep
      rw [hstep]
      have hok := (firstUndefined_ok _ _).1 hf
      constructor
      · rw [ih.1]
        simp only [List.mem_cons, forall_eq_or_imp]
        exact ⟨fun h => ⟨hok, h⟩, fun h => h.2⟩
      · intro e
        rw [ih.2 e]
        constructor
        · rintro ⟨s', name, ⟨a', b', rfl, h1, h2⟩, h3, h4⟩
          refine ⟨s', name, ⟨(sname, s) :: a', b', rfl, h1, ?_⟩, h3, h4⟩
          simp only [List.mem_cons, forall_eq_or_imp]
          exact ⟨fun ⟨n, hn, hn'⟩ => hn' (hok n hn), h2⟩
        · rintro ⟨s', name, ⟨a', b', heq, h1, h2⟩, h3, h4⟩
          cases a' with
          | nil => cases heq; obtain ⟨n, hn, hn'⟩ := h1; exact absurd (hok n hn) hn'
          | cons y a' => cases heq; exact ⟨s', name, ⟨a', b', rfl, h1, fun z hz => h2 z (by simp [hz])⟩, h3, h4⟩

/-- C23: `validate_networks` accepts exactly if every network used by a service is declared, and otherwise reports
the first service and the first of its networks that is not. -/
theorem C23_validate_networks (f : File M N V R) :
    ChecksUse f.services usedNetworks (Declared f.networks) .network f.validateNetworks := by
  refine eachService_checks f.networks .network usedNetworks _ ?_ f.services
  intro s
  unfold Service.validateNetworks usedNetworks
  match s.networkConfig with
  | none => rfl
  | some (.networkMode m) => rfl
  | some (.networks (.short names)) => rfl
  | some (.networks (.long entries)) => rfl

example : exampleFile.validateNetworks = .error ⟨some "web".toList, "front".toList, .network⟩ := by decide

/-- C24: the same for configs. -/
theorem C24_validate_configs (f : File M N V R) :
    ChecksUse f.services (fun s => s.configs.map entryName) (Declared f.configs) .config f.validateConfigs := by
  refine eachService_checks f.configs .config _ _ ?_ f.services
  intro s
  unfold Service.validateConfigs
  congr 2

example : exampleFile.validateConfigs = .error ⟨some "web".toList, "other".toList, .config⟩ := by decide

/-- C24: the same for secrets. -/
theorem C24_validate_secrets (f : File M N V R) :
    ChecksUse f.services (fun s => s.secrets.map entryName) (Declared f.secrets) .secret f.validateSecrets := by
  refine eachService_checks f.secrets .secret _ _ ?_ f.services
  intro s
  unfold Service.validateSecrets
  congr 2

example : exampleFile.validateSecrets = .ok () := by decide

/-! ### C25, C26 volumes -/

/-- The position splits the mentions so that the volume was mentioned before and is not declared. -/
def BadMention (volumes : List (Str × R)) (before : List Str) (v : Str) : Prop := v ∈ before ∧ ¬ Declared volumes v

theorem volumeLoop_error (volumes : List (Str × R)) (seen : Str → Option Bool) (done rest : List Str)
    (hseen : ∀ v, seen v ≠ none ↔ v ∈ done) (hflag : ∀ v, seen v = some true → Declared volumes v)
    (e : ValidationError) :
    File.volumeLoop volumes seen rest = .error e ↔
      ∃ a v b, rest = a ++ v :: b ∧ BadMention volumes (done ++ a) v ∧
        (∀ a1 w a2, a = a1 ++ w :: a2 → ¬ BadMention volumes (done ++ a1) w) ∧ e = ⟨none, v, .volume⟩ := by
  induction rest generalizing seen done with
  | nil => simp [File.volumeLoop]
  | cons x xs ih =>
    have hnext : ∀ (seen' : Str → Option Bool), (∀ v, seen' v ≠ none ↔ v ∈ done ++ [x]) →
        (∀ v, seen' v = some true → Declared volumes v) → ¬ BadMention volumes done x →
        (File.volumeLoop volumes seen' xs = .error e ↔
          ∃ a v b, x :: xs = a ++ v :: b ∧ BadMention volumes (done ++ a) v ∧
          (∀ a1 w a2, a = a1 ++ w :: a2 → ¬ BadMention volumes (done ++ a1) w) ∧ e = ⟨none, v, .volume⟩) := by
      intro seen' h1 h2 h3
      rw [ih seen' (done ++ [x]) h1 h2]
      constructor
      · rintro ⟨a, v, b, rfl, hb, ha, rfl⟩
        refine ⟨x :: a, v, b, rfl, by simpa using hb, ?_, rfl⟩
        intro a1 w a2 heq
        cases a1 with
        | nil => cases heq; simpa using h3
        | cons y a1 => cases heq; simpa using ha a1 w a2 rfl
      · rintro ⟨a, v, b, heq, hb, ha, rfl⟩
        cases a with
        | nil => cases heq; exact absurd (by simpa using hb) h3
        | cons y a =>
          cases heq
          refine ⟨a, v, b, rfl, by simpa using hb, ?_, rfl⟩
          intro a1 w a2 heq
          have := ha (x :: a1) w a2 (by rw [heq]; rfl)
          simpa using this
    rw [File.volumeLoop]
    match hx : seen x with
    | none =>
      have hnot : x ∉ done := fun h => (hseen x).2 h hx
      refine hnext _ ?_ ?_ (fun h => hnot h.1)
      · intro v
        by_cases hv : v = x
        · simp [hv]
        · simp [hv, hseen v]
      · intro v hv
        by_cases hvx : v = x
        · simp [hvx] at hv
        · exact hflag v (by simpa [hvx] using hv)
    | some flagged =>
      have hdone : x ∈ done := (hseen x).1 (by simp [hx])
      simp only
      split
      · rename_i hbad
        simp only [Bool.and_eq_true, Bool.not_eq_true'] at hbad
        have hnd : ¬ Declared volumes x := by
          rw [← containsKey_iff]; simp [hbad.2]
        constructor
        · intro he; cases he
          exact ⟨[], x, xs, rfl, ⟨by simpa using hdone, hnd⟩, by simp, rfl⟩
        · rintro ⟨a, v, b, heq, hb, ha, rfl⟩
          cases a with
          | nil => cases heq; rfl
          | cons y a =>
            cases heq
            exact absurd ⟨by simpa using hdone, hnd⟩ (ha [] x a rfl)
      · rename_i hgood
        have hd : Declared volumes x := by
          cases flagged with
          | true => exact hflag x hx
          | false => rw [← containsKey_iff]; simpa using hgood
        refine hnext _ ?_ ?_ (fun h => h.2 hd)
        · intro v
          by_cases hv : v = x
          · simp [hv]
          · simp [hv, hseen v]
        · intro v hv
          by_cases hvx : v = x
          · rw [hvx]; exact hd
          · exact hflag v (by simpa [hvx] using hv)

theorem namedVolumesIter_eq (s : Service M N V) : namedVolumesIter s.volumes = mountedVolumes s := by
  unfold namedVolumesIter mountedVolumes
  congr 1
  funext entry
  match entry with
  | .short ⟨p, none⟩ => rfl
  | .short ⟨p, some ⟨.hostPath h, ro, se⟩⟩ => rfl
  | .short ⟨p, some ⟨.volume n, ro, se⟩⟩ => rfl
  | .long (.volume m) => rfl
  | .long (.bind b) => rfl
  | .long (.tmpfs _ _) => rfl
  | .long (.namedPipe _ _) => rfl
  | .long (.cluster _ _) => rfl

theorem validateVolumes_eq (f : File M N V R) :
    f.validateVolumes = File.volumeLoop f.volumes (fun _ => none) (mentions f) := by
  unfold File.validateVolumes mentions
  congr 1
  congr 1
  funext s
  exact namedVolumesIter_eq s.2

/-- C25: the error is for the first mention of a volume that was mentioned before and is not declared. -/
theorem C25_validate_volumes_error (f : File M N V R) (e : ValidationError) :
    f.validateVolumes = .error e ↔
      ∃ before v after, mentions f = before ++ v :: after ∧ (v ∈ before ∧ ¬ Declared f.volumes v) ∧
        (∀ b w a, before = b ++ w :: a → ¬ (w ∈ b ∧ ¬ Declared f.volumes w)) ∧ e = ⟨none, v, .volume⟩ := by
  have := volumeLoop_error f.volumes (fun _ => none) [] (mentions f) (by simp) (by simp) e
  simp only [List.nil_append, BadMention] at this
  rw [validateVolumes_eq]
  exact this

example : mentions exampleFile = ["data".toList, "data".toList] ∧
    exampleFile.validateVolumes = .error ⟨none, "data".toList, .volume⟩ := ⟨rfl, rfl⟩

theorem two_le_count_iff (v : Str) (l : List Str) :
    2 ≤ l.count v ↔ ∃ a b, l = a ++ v :: b ∧ v ∈ a := by
  constructor
  · intro h
    induction l with
    | nil => simp at h
    | cons x xs ih =>
      by_cases hx : x = v
      · subst hx
        rw [List.count_cons_self] at h
        have : 0 < xs.count x := by omega
        obtain ⟨a, b, rfl⟩ := List.append_of_mem (List.count_pos_iff.1 this)
        exact ⟨x :: a, b, rfl, by simp⟩
      · rw [List.count_cons_of_ne hx] at h
        obtain ⟨a, b, rfl, ha⟩ := ih h
        exact ⟨x :: a, b, rfl, by simp [ha]⟩
  · rintro ⟨a, b, rfl, ha⟩
    have := List.count_pos_iff.2 ha
    simp [List.count_append]; omega

/-- C25: `validate_volumes` accepts exactly if every volume mentioned at least twice is declared. -/
theorem C25_validate_volumes (f : File M N V R) :
    f.validateVolumes = .ok () ↔ ∀ v, 2 ≤ (mentions f).count v → Declared f.volumes v := by
  constructor
  · intro hok v hv
    by_contra hd
    rw [two_le_count_iff] at hv
    obtain ⟨a, b, hab, hva⟩ := hv
    -- the first bad mention
    have hex : ∃ n, ∃ before v after, mentions f = before ++ v :: after ∧ (v ∈ before ∧ ¬ Declared f.volumes v) ∧
        before.length = n := ⟨_, a, v, b, hab, ⟨hva, hd⟩, rfl⟩
    classical
    obtain ⟨before, w, after, h1, h2, h3⟩ := Nat.find_spec hex
    have hmin := fun n hn => Nat.find_min hex (m := n) hn
    have : f.validateVolumes = .error ⟨none, w, .volume⟩ := by
      rw [C25_validate_volumes_error]
      refine ⟨before, w, after, h1, h2, ?_, rfl⟩
      intro b x a' heq hbad
      refine hmin b.length ?_ ⟨b, x, a' ++ w :: after, by rw [h1, heq]; simp, hbad, rfl⟩
      rw [← h3, heq]; simp
    rw [hok] at this; cases this
  · intro h
    match hr : f.validateVolumes with
    | .ok () => rfl
    | .error e =>
      obtain ⟨before, v, after, h1, ⟨h2, h3⟩, _, _⟩ := (C25_validate_volumes_error f e).1 hr
      exact absurd (h v ((two_le_count_iff _ _).2 ⟨before, after, h1, h2⟩)) h3

example : { exampleFile with volumes := [("data".toList, ())] : File Unit Unit Unit Unit }.validateVolumes = .ok () := rfl

/-- C25: the reported volume is mentioned at least twice and is not declared. -/
theorem C25_validate_volumes_sound (f : File M N V R) (e : ValidationError) (h : f.validateVolumes = .error e) :
    2 ≤ (mentions f).count e.resource ∧ ¬ Declared f.volumes e.resource ∧ e.kind = .volume ∧ e.service = none := by
  obtain ⟨before, v, after, h1, ⟨h2, h3⟩, _, rfl⟩ := (C25_validate_volumes_error f e).1 h
  exact ⟨(two_le_count_iff _ _).2 ⟨before, after, h1, h2⟩, h3, rfl, rfl⟩

example : 2 ≤ (mentions exampleFile).count "data".toList :=
  (C25_validate_volumes_sound exampleFile ⟨none, "data".toList, .volume⟩ rfl).1

/-- A file in which one service mounts the same named volume at two places. -/
def oneServiceTwice : File Unit Unit Unit Unit where
  services := [("web".toList,
    { volumes := [.short ⟨"/a".toList, some ⟨.volume "data".toList, false, none⟩⟩,
                  .short ⟨"/b".toList, some ⟨.volume "data".toList, false, none⟩⟩] })]

/-- C26 is false for the code: a volume mounted twice by one service and by no other is reported. -/
theorem C26_single_service_volume_false :
    ¬ ∀ (f : File Unit Unit Unit Unit) (e : ValidationError), f.validateVolumes = .error e →
      ∃ s1 ∈ f.services, ∃ s2 ∈ f.services, s1.1 ≠ s2.1 ∧ Mounts s1.2 e.resource ∧ Mounts s2.2 e.resource := by
  intro h
  obtain ⟨s1, h1, s2, h2, hne, _⟩ := h oneServiceTwice ⟨none, "data".toList, .volume⟩ rfl
  simp only [oneServiceTwice, List.mem_singleton] at h1 h2
  exact hne (by rw [h1, h2])

theorem two_le_count_mentions (l : List (Str × Service M N V)) (v : Str) (hnd : (l.map Prod.fst).Nodup) :
    2 ≤ (l.flatMap fun s => mountedVolumes s.2).count v ↔
      (∃ s1 ∈ l, ∃ s2 ∈ l, s1.1 ≠ s2.1 ∧ Mounts s1.2 v ∧ Mounts s2.2 v) ∨ ∃ s ∈ l, MountsTwice s.2 v := by
  induction l with
  | nil => simp
  | cons x xs ih =>
    simp only [List.map_cons, List.nodup_cons] at hnd
    rw [List.flatMap_cons, List.count_append]
    have hpos : 0 < (xs.flatMap fun s => mountedVolumes s.2).count v ↔ ∃ u ∈ xs, Mounts u.2 v := by
      rw [List.count_pos_iff, List.mem_flatMap]; rfl
    have hx : 0 < (mountedVolumes x.2).count v ↔ Mounts x.2 v := List.count_pos_iff
    constructor
    · intro h
      by_cases h2 : MountsTwice x.2 v
      · exact Or.inr ⟨x, by simp, h2⟩
      by_cases hm : Mounts x.2 v
      · have : 0 < (xs.flatMap fun s => mountedVolumes s.2).count v := by
          unfold MountsTwice at h2; omega
        obtain ⟨u, hu, hmu⟩ := hpos.1 this
        refine Or.inl ⟨x, by simp, u, by simp [hu], ?_, hm, hmu⟩
        intro heq
        exact hnd.1 (by rw [heq]; exact List.mem_map_of_mem hu)
      · have h0 : (mountedVolumes x.2).count v = 0 := by
          by_contra hne; exact hm (hx.1 (by omega))
        rcases (ih hnd.2).1 (by omega) with ⟨s1, h1, s2, h2, h3⟩ | ⟨s, hs, h⟩
        · exact Or.inl ⟨s1, by simp [h1], s2, by simp [h2], h3⟩
        · exact Or.inr ⟨s, by simp [hs], h⟩
    · rintro (⟨s, hs, t, ht, hne, hms, hmt⟩ | ⟨s, hs, h⟩)
      · rcases List.mem_cons.1 hs with hsx | hs'
        · rcases List.mem_cons.1 ht with htx | ht'
          · exact absurd (by rw [hsx, htx]) hne
          · have := hpos.2 ⟨t, ht', hmt⟩
            have := hx.2 (hsx ▸ hms)
            omega
        · rcases List.mem_cons.1 ht with htx | ht'
          · have := hpos.2 ⟨s, hs', hms⟩
            have := hx.2 (htx ▸ hmt)
            omega
          · have := (ih hnd.2).2 (Or.inl ⟨s, hs', t, ht', hne, hms, hmt⟩)
            omega
      · rcases List.mem_cons.1 hs with hsx | hs'
        · have : 2 ≤ (mountedVolumes x.2).count v := hsx ▸ h
          omega
        · have := (ih hnd.2).2 (Or.inr ⟨s, hs', h⟩)
          omega

/-- C26, what the code guarantees instead (service names are distinct, being keys of a map): a reported volume is used by
two different services, or is mounted at two places by one service. Missing: that the second case is not reported. -/
theorem C26_single_service_volume_partial (f : File M N V R) (e : ValidationError)
    (hnd : (f.services.map Prod.fst).Nodup) (h : f.validateVolumes = .error e) :
    ¬ Declared f.volumes e.resource ∧
      ((∃ s1 ∈ f.services, ∃ s2 ∈ f.services, s1.1 ≠ s2.1 ∧ Mounts s1.2 e.resource ∧ Mounts s2.2 e.resource) ∨
        ∃ s ∈ f.services, MountsTwice s.2 e.resource) :=
  have hs := C25_validate_volumes_sound f e h
  ⟨hs.2.1, (two_le_count_mentions _ _ hnd).1 hs.1⟩

example : (oneServiceTwice.services.map Prod.fst).Nodup ∧
    oneServiceTwice.validateVolumes = .error ⟨none, "data".toList, .volume⟩ := ⟨by decide, rfl⟩

/-- C26, exactly: `validate_volumes` rejects a file if and only if some undeclared volume is used by two different services
or mounted twice by one. -/
theorem C26_rejects_iff (f : File M N V R) (hnd : (f.services.map Prod.fst).Nodup) :
    (∃ e, f.validateVolumes = .error e) ↔
      ∃ v, ¬ Declared f.volumes v ∧
        ((∃ s1 ∈ f.services, ∃ s2 ∈ f.services, s1.1 ≠ s2.1 ∧ Mounts s1.2 v ∧ Mounts s2.2 v) ∨
          ∃ s ∈ f.services, MountsTwice s.2 v) := by
  constructor
  · rintro ⟨e, he⟩
    exact ⟨_, C26_single_service_volume_partial f e hnd he⟩
  · rintro ⟨v, hv, h⟩
    match hr : f.validateVolumes with
    | .error e => exact ⟨e, rfl⟩
    | .ok () => exact absurd ((C25_validate_volumes f).1 hr v ((two_le_count_mentions _ _ hnd).2 h)) hv

example : ∃ v, ¬ Declared exampleFile.volumes v ∧
    ((∃ s1 ∈ exampleFile.services, ∃ s2 ∈ exampleFile.services, s1.1 ≠ s2.1 ∧ Mounts s1.2 v ∧ Mounts s2.2 v) ∨
      ∃ s ∈ exampleFile.services, MountsTwice s.2 v) := (C26_rejects_iff _ (by decide)).1 ⟨_, rfl⟩

/-- C26, the converse: an undeclared volume used by two different services is always reported, or an earlier one is. -/
theorem C26_shared_volume_required (f : File M N V R) (v : Str) (hnd : (f.services.map Prod.fst).Nodup)
    (hv : ¬ Declared f.volumes v)
    (h : ∃ s1 ∈ f.services, ∃ s2 ∈ f.services, s1.1 ≠ s2.1 ∧ Mounts s1.2 v ∧ Mounts s2.2 v) :
    ∃ e, f.validateVolumes = .error e :=
  (C26_rejects_iff f hnd).2 ⟨v, hv, Or.inl h⟩

example : ¬ Declared exampleFile.volumes "data".toList ∧ ∃ s1 ∈ exampleFile.services, ∃ s2 ∈ exampleFile.services,
    s1.1 ≠ s2.1 ∧ Mounts s1.2 "data".toList ∧ Mounts s2.2 "data".toList :=
  ⟨by simp [Declared, exampleFile], _, .head _, _, .tail _ (.head _), by decide, by unfold Mounts mountedVolumes; decide,
    by unfold Mounts mountedVolumes; decide⟩

/-- C27: `validate_all` succeeds exactly if the four checks do. -/
theorem C27_validate_all_ok (f : File M N V R) :
    f.validateAll = .ok () ↔ f.validateNetworks = .ok () ∧ f.validateVolumes = .ok () ∧
      f.validateConfigs = .ok () ∧ f.validateSecrets = .ok () := by
  unfold File.validateAll
  match f.validateNetworks, f.validateVolumes, f.validateConfigs, f.validateSecrets with
  | .error _, _, _, _ => simp [bind, Except.bind]
  | .ok (), .error _, _, _ => simp [bind, Except.bind]
  | .ok (), .ok (), .error _, _ => simp [bind, Except.bind]
  | .ok (), .ok (), .ok (), .error _ => simp [bind, Except.bind]
  | .ok (), .ok (), .ok (), .ok () => simp [bind, Except.bind]

example : { exampleFile with
    networks := [("front".toList, ()), ("back".toList, ())], volumes := [("data".toList, ())],
    configs := [("other".toList, ()), ("conf".toList, ())] : File Unit Unit Unit Unit }.validateAll = .ok () := rfl

/-- C27: otherwise the error is that of the first failing check, in the order networks, volumes, configs,
secrets. -/
theorem C27_validate_all_error (f : File M N V R) (e : ValidationError) :
    f.validateAll = .error e ↔
      f.validateNetworks = .error e ∨
      (f.validateNetworks = .ok () ∧ f.validateVolumes = .error e) ∨
      (f.validateNetworks = .ok () ∧ f.validateVolumes = .ok () ∧ f.validateConfigs = .error e) ∨
      (f.validateNetworks = .ok () ∧ f.validateVolumes = .ok () ∧ f.validateConfigs = .ok () ∧
        f.validateSecrets = .error e) := by
  unfold File.validateAll
  match f.validateNetworks, f.validateVolumes, f.validateConfigs, f.validateSecrets with
  | .error _, _, _, _ => simp [bind, Except.bind]
  | .ok (), .error _, _, _ => simp [bind, Except.bind]
  | .ok (), .ok (), .error _, _ => simp [bind, Except.bind]
  | .ok (), .ok (), .ok (), .error _ => simp [bind, Except.bind]
  | .ok (), .ok (), .ok (), .ok () => simp [bind, Except.bind]

example : { exampleFile with networks := [("front".toList, ()), ("back".toList, ())] : File Unit Unit Unit Unit }.validateAll =
    .error ⟨none, "data".toList, .volume⟩ := rfl

/-- C27, in terms of the file: `validate_all` accepts exactly if every network, config and secret that a service
uses is declared, and every named volume mentioned twice is declared. -/
theorem C27_validate_all_meaning (f : File M N V R) :
    f.validateAll = .ok () ↔
      (∀ s ∈ f.services, ∀ name ∈ usedNetworks s.2, Declared f.networks name) ∧
      (∀ v, 2 ≤ (mentions f).count v → Declared f.volumes v) ∧
      (∀ s ∈ f.services, ∀ entry ∈ s.2.configs, Declared f.configs (entryName entry)) ∧
      (∀ s ∈ f.services, ∀ entry ∈ s.2.secrets, Declared f.secrets (entryName entry)) := by
  rw [C27_validate_all_ok, (C23_validate_networks f).1, C25_validate_volumes, (C24_validate_configs f).1,
    (C24_validate_secrets f).1]
  simp

/-! ### Examples -/

example : exampleFile.validateVolumes = .error ⟨none, "data".toList, .volume⟩ := by rfl
example : exampleFile.validateAll = .error ⟨some "web".toList, "front".toList, .network⟩ := by decide
example : (exampleFile.services.map Prod.fst).Nodup := by decide
example : (oneServiceTwice.services.map Prod.fst).Nodup := by decide
example : ∃ s ∈ oneServiceTwice.services, MountsTwice s.2 "data".toList :=
  ⟨_, by simp [oneServiceTwice]; rfl, by unfold MountsTwice mountedVolumes; decide⟩

end Props
