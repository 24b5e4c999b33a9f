import Verif.Spec.Renaming
import Verif.Props.Repair

/- C112: validation depends on the names only, and on names only by which of them are equal. -/

namespace Props
open Rust Compose Spec

variable {M N V R M' N' V' R' : Type}

theorem containsKey_renamed {map : List (Str × R)} {map' : List (Str × R')} {ρ : Str → Str} {name : Str}
    (hm : map'.map Prod.fst = (map.map Prod.fst).map ρ)
    (h : ∀ a ∈ map.map Prod.fst, ρ a = ρ name → a = name) : containsKey map' (ρ name) = containsKey map name := by
  rw [Bool.eq_iff_iff]
  simp only [containsKey, List.contains_iff_mem]
  rw [hm]
  constructor
  · intro hn
    obtain ⟨a, ha, e⟩ := List.mem_map.1 hn
    exact h a ha e ▸ ha
  · exact List.mem_map_of_mem

theorem firstUndefined_renamed {map : List (Str × R)} {map' : List (Str × R')} {ρ : Str → Str} (names : List Str)
    (hm : map'.map Prod.fst = (map.map Prod.fst).map ρ)
    (h : ∀ a ∈ map.map Prod.fst, ∀ b ∈ names, ρ a = ρ b → a = b) :
    firstUndefined map' (names.map ρ) = (firstUndefined map names).mapError ρ := by
  induction names with
  | nil => rfl
  | cons name names ih =>
    rw [List.map_cons, firstUndefined, firstUndefined,
      containsKey_renamed hm fun a ha => h a ha name List.mem_cons_self,
      ih fun a ha b hb => h a ha b (List.mem_cons_of_mem _ hb)]
    split <;> rfl

theorem eachService_renamed {σ : Str → Str} {ρ : Str → Str} {k : ResourceKind} {check : Service M N V → Except Str Unit}
    {check' : Service M' N' V' → Except Str Unit} {l : List (Str × Service M N V)} {l' : List (Str × Service M' N' V')}
    (resource : ResourceKind → Str → Str) (hρ : resource k = ρ)
    (h : List.Forall₂ (fun s t => t.1 = σ s.1 ∧ check' t.2 = (check s.2).mapError ρ) l l') :
    File.eachService k check' l' = renamedAnswer σ resource (File.eachService k check l) := by
  subst hρ
  induction h with
  | nil => rfl
  | @cons s t l l' hs _ ih =>
    obtain ⟨s, x⟩ := s
    obtain ⟨t, y⟩ := t
    obtain ⟨h1, h2⟩ := hs
    dsimp only at h1 h2
    rw [File.eachService, File.eachService, h2, h1]
    cases check x with
    | error e => rfl
    | ok u => exact ih

theorem volumeLoop_renamed {map : List (Str × R)} {map' : List (Str × R')} {σ : Str → Str}
    (resource : ResourceKind → Str → Str) (hm : map'.map Prod.fst = (map.map Prod.fst).map (resource .volume))
    (rest : List Str) (h : ∀ a ∈ rest ++ map.map Prod.fst, ∀ b ∈ rest, resource .volume a = resource .volume b → a = b)
    (seen seen' : Str → Option Bool) (hs : ∀ v ∈ rest, seen' (resource .volume v) = seen v) :
    File.volumeLoop map' seen' (rest.map (resource .volume)) = renamedAnswer σ resource (File.volumeLoop map seen rest) := by
  induction rest generalizing seen seen' with
  | nil => rfl
  | cons v rest ih =>
    have ih := ih (fun a ha b hb => h a (by rw [List.cons_append]; exact List.mem_cons_of_mem _ ha) b (List.mem_cons_of_mem _ hb))
    have step : ∀ x : Bool, ∀ w ∈ rest,
        (if resource .volume w = resource .volume v then some x else seen' (resource .volume w)) =
          if w = v then some x else seen w := by
      intro x w hw
      have : resource .volume w = resource .volume v ↔ w = v :=
        ⟨h w (by simp [hw]) v List.mem_cons_self, fun e => e ▸ rfl⟩
      simp only [this, hs w (List.mem_cons_of_mem _ hw)]
    rw [List.map_cons, File.volumeLoop, File.volumeLoop, hs v List.mem_cons_self,
      containsKey_renamed hm fun a ha => h a (by simp only [List.mem_append]; exact .inr ha) v List.mem_cons_self]
    cases seen v with
    | none => exact ih _ _ (step false)
    | some x =>
      dsimp only
      split
      · rfl
      · exact ih _ _ (step true)

theorem forall₂_imp_mem {α β : Type} {r s : α → β → Prop} {a : List α} {b : List β} (h : List.Forall₂ r a b)
    (hrs : ∀ x ∈ a, ∀ y, r x y → s x y) : List.Forall₂ s a b := by
  induction h with
  | nil => exact .nil
  | cons h _ ih => exact .cons (hrs _ List.mem_cons_self _ h) (ih fun x hx => hrs x (List.mem_cons_of_mem _ hx))

section
variable {service : Str → Str} {resource : ResourceKind → Str → Str} {f : File M N V R} {g : File M' N' V' R'}

theorem mentions_renamed (h : Renamed service resource f g) : mentions g = (mentions f).map (resource .volume) := by
  have := h.services
  rw [mentions, mentions]
  generalize f.services = l at this
  generalize g.services = l' at this
  induction this with
  | nil => rfl
  | cons hs _ ih => rw [List.flatMap_cons, List.flatMap_cons, List.map_append, ← ih]; exact congrArg (· ++ _) (hs.2 .volume)

theorem validateNetworks_names (s : Service M N V) (map : List (Str × R)) :
    s.validateNetworks map = firstUndefined map (namesUsed .network s) := by
  rw [Service.validateNetworks, namesUsed, usedNetworks]
  split
  · next n hn => rw [hn]; cases n <;> rfl
  · next hn =>
    split
    · next e => exact absurd e (hn _)
    · next e => exact absurd e (hn _)
    · rfl

theorem validateConfigs_names (s : Service M N V) (map : List (Str × R)) :
    s.validateConfigs map = firstUndefined map (namesUsed .config s) := by
  rw [Service.validateConfigs, namesUsed]
  exact congrArg (firstUndefined map) (List.map_congr_left fun c _ => by cases c <;> rfl)

theorem validateSecrets_names (s : Service M N V) (map : List (Str × R)) :
    s.validateSecrets map = firstUndefined map (namesUsed .secret s) := by
  rw [Service.validateSecrets, namesUsed]
  exact congrArg (firstUndefined map) (List.map_congr_left fun c _ => by cases c <;> rfl)

theorem check_renamed (h : Renamed service resource f g) (ha : KeepsApart resource f) (k : ResourceKind)
    {check : Service M N V → Except Str Unit} {check' : Service M' N' V' → Except Str Unit}
    (hc : ∀ s, check s = firstUndefined (sectionOf k f) (namesUsed k s))
    (hc' : ∀ s, check' s = firstUndefined (sectionOf k g) (namesUsed k s)) :
    File.eachService k check' g.services = renamedAnswer service resource (File.eachService k check f.services) := by
  refine eachService_renamed resource rfl (forall₂_imp_mem h.services fun s hs t ht => ⟨ht.1, ?_⟩)
  rw [hc', hc, ht.2 k]
  exact firstUndefined_renamed _ (h.sections k) fun a hma b hb =>
    ha k a (List.mem_append.2 (.inr hma)) b (List.mem_append.2 (.inl (List.mem_flatMap.2 ⟨s, hs, hb⟩)))

/-- C112: a file with other names gets the same answer about the new names, from each of the checks and from all of them
together, if different names get different new names. -/
theorem C112_renamed (service : Str → Str) (resource : ResourceKind → Str → Str) (f : File M N V R) (g : File M' N' V' R')
    (h : Renamed service resource f g) (ha : KeepsApart resource f) :
    g.validateNetworks = renamedAnswer service resource f.validateNetworks ∧
    g.validateVolumes = renamedAnswer service resource f.validateVolumes ∧
    g.validateConfigs = renamedAnswer service resource f.validateConfigs ∧
    g.validateSecrets = renamedAnswer service resource f.validateSecrets ∧
    g.validateAll = renamedAnswer service resource f.validateAll := by
  have h1 : g.validateNetworks = renamedAnswer service resource f.validateNetworks :=
    check_renamed h ha .network (fun s => validateNetworks_names s _) fun s => validateNetworks_names s _
  have h2 : g.validateVolumes = renamedAnswer service resource f.validateVolumes := by
    rw [validateVolumes_eq, validateVolumes_eq, mentions_renamed h]
    refine volumeLoop_renamed resource (h.sections .volume) _ (fun a ha' b hb => ?_) _ _ fun _ _ => rfl
    exact ha .volume a ha' b (List.mem_append.2 (.inl hb))
  have h3 : g.validateConfigs = renamedAnswer service resource f.validateConfigs :=
    check_renamed h ha .config (fun s => validateConfigs_names s _) fun s => validateConfigs_names s _
  have h4 : g.validateSecrets = renamedAnswer service resource f.validateSecrets :=
    check_renamed h ha .secret (fun s => validateSecrets_names s _) fun s => validateSecrets_names s _
  refine ⟨h1, h2, h3, h4, ?_⟩
  rw [File.validateAll, File.validateAll, h1, h2, h3, h4]
  cases f.validateNetworks with
  | error e => rfl
  | ok u => cases f.validateVolumes with
    | error e => rfl
    | ok u => cases f.validateConfigs with
      | error e => rfl
      | ok u => cases f.validateSecrets <;> rfl

end

/-- `exampleFile` with a number at the end of all names, and with the long and the short syntax exchanged. -/
def renamedFile : File Unit Unit Unit Unit where
  services :=
    [("db2".toList, { networkConfig := some (.networks (.long [("back2".toList, none)])),
                      volumes := [.long (.volume ⟨some "data2".toList, none, { target := "/var/lib".toList }⟩)] }),
     ("web2".toList, { networkConfig := some (.networks (.short ["back2".toList, "front2".toList])),
                       volumes := [.short ⟨"/mnt".toList, some ⟨.volume "data2".toList, true, none⟩⟩,
                         .short ⟨"/etc".toList, some ⟨.hostPath "/etc".toList, true, none⟩⟩],
                       configs := [.short "conf2".toList, .long { source := "other2".toList }] })]
  networks := [("back2".toList, ())]
  configs := [("conf2".toList, ())]

theorem renamedFile_renamed : Renamed (· ++ "2".toList) (fun _ => (· ++ "2".toList)) exampleFile renamedFile :=
  ⟨.cons ⟨rfl, fun k => by cases k <;> rfl⟩ (.cons ⟨rfl, fun k => by cases k <;> rfl⟩ .nil), fun k => by cases k <;> rfl⟩

/-- The network `front` of the service `web` is not declared: so is `front2` of `web2`. -/
example : exampleFile.validateAll = .error ⟨some "web".toList, "front".toList, .network⟩ ∧
    renamedFile.validateAll = .error ⟨some "web2".toList, "front2".toList, .network⟩ :=
  ⟨rfl, (C112_renamed _ _ _ _ renamedFile_renamed fun _ _ _ _ _ e => List.append_cancel_right e).2.2.2.2⟩

/-- C112: so nothing but the names counts: two files whose services use the same names and that declare the same names get the
same answer. -/
theorem C112_names_only (f : File M N V R) (g : File M' N' V' R')
    (hs : List.Forall₂ (fun s t => t.1 = s.1 ∧ ∀ k, namesUsed k t.2 = namesUsed k s.2) f.services g.services)
    (hd : ∀ k, (sectionOf k g).map Prod.fst = (sectionOf k f).map Prod.fst) : g.validateAll = f.validateAll := by
  have h : Renamed id (fun _ => id) f g :=
    ⟨hs.imp fun _ _ h => ⟨h.1, fun k => by rw [h.2 k, List.map_id]⟩, fun k => by rw [hd k, List.map_id]⟩
  rw [(C112_renamed _ _ f g h fun _ _ _ _ _ e => e).2.2.2.2]
  cases f.validateAll with
  | ok u => rfl
  | error e => obtain ⟨s, r, k⟩ := e; cases s <;> rfl

/-- The short syntax for the networks of a service. -/
example : ({ exampleFile with services := exampleFile.services.map fun s : Str × Service Unit Unit Unit => (s.1,
      { s.2 with networkConfig := some (.networks (.short (usedNetworks s.2))) }) } : File Unit Unit Unit Unit).validateAll =
    .error ⟨some "web".toList, "front".toList, .network⟩ :=
  C112_names_only exampleFile _ (.cons ⟨rfl, fun k => by cases k <;> rfl⟩ (.cons ⟨rfl, fun k => by cases k <;> rfl⟩ .nil))
    fun k => by cases k <;> rfl

/-- C112: if the new names do not keep different names apart, a valid file stays valid, provided that all the volumes that its
services mount are declared. -/
theorem C112_merged (service : Str → Str) (resource : ResourceKind → Str → Str) (f : File M N V R) (g : File M' N' V' R')
    (h : Renamed service resource f g) (hf : f.validateAll = .ok ()) (hv : ∀ v ∈ mentions f, Declared f.volumes v) :
    g.validateAll = .ok () := by
  have hd : ∀ k name, Declared (sectionOf k f) name → Declared (sectionOf k g) (resource k name) := by
    rintro k name ⟨r, hr⟩
    have : resource k name ∈ (sectionOf k g).map Prod.fst := by
      rw [h.sections k]
      exact List.mem_map_of_mem (List.mem_map.2 ⟨_, hr, rfl⟩)
    obtain ⟨⟨_, r'⟩, hm, rfl⟩ := List.mem_map.1 this
    exact ⟨r', hm⟩
  rw [validateAll_uses] at hf ⊢
  refine ⟨fun k hk t ht name hn => ?_, fun v h2 => ?_⟩
  · obtain ⟨s, hs, -, he⟩ := forall₂_left h.services.flip ht
    rw [he k] at hn
    obtain ⟨n, hn', rfl⟩ := List.mem_map.1 hn
    exact hd k n (hf.1 k hk s hs n hn')
  · have hm : v ∈ mentions g := List.count_pos_iff.1 (by omega)
    rw [mentions_renamed h] at hm
    obtain ⟨n, hn, rfl⟩ := List.mem_map.1 hm
    exact hd .volume n (hv n hn)

/-- A service that is attached to a network and mounts a volume. -/
def oneName (x : Str) : Service Unit Unit Unit where
  networkConfig := some (.networks (.short [x]))
  volumes := [.short ⟨"/srv".toList, some ⟨.volume x, false, none⟩⟩]

/-- Two such services. -/
def twoNames (a b : Str) (declared : List Str) : File Unit Unit Unit Unit where
  services := [(a, oneName a), (b, oneName b)]
  networks := [(a, ()), (b, ())]
  volumes := declared.map (·, ())

theorem twoNames_renamed (a b c d : Str) (l : List Str) (ρ : Str → Str) (hc : ρ a = c) (hd : ρ b = d) :
    Renamed ρ (fun _ => ρ) (twoNames a b l) (twoNames c d (l.map ρ)) := by
  subst hc hd
  refine ⟨.cons ⟨rfl, fun k => by cases k <;> rfl⟩ (.cons ⟨rfl, fun k => by cases k <;> rfl⟩ .nil), fun k => ?_⟩
  cases k
  · rfl
  · show (List.map (·, ()) (l.map ρ)).map Prod.fst = ((l.map (·, ())).map Prod.fst).map ρ
    simp [List.map_map, Function.comp_def]
  · rfl
  · rfl

example : (twoNames "x".toList "x".toList ["x".toList, "x".toList]).validateAll = .ok () :=
  C112_merged (fun _ => "x".toList) _ _ _ (twoNames_renamed "a".toList "b".toList _ _ ["a".toList, "b".toList] _ rfl rfl) rfl
    (by
      intro v hv
      have : v ∈ ["a".toList, "b".toList] := hv
      rcases List.mem_cons.1 this with rfl | h
      · exact ⟨(), by simp [twoNames]⟩
      · rcases List.mem_singleton.1 h with rfl
        exact ⟨(), by simp [twoNames]⟩)

/-- Without the declarations the two volumes become one that is shared and has to be declared. -/
example : (twoNames "a".toList "b".toList []).validateAll = .ok () ∧
    (twoNames "x".toList "x".toList []).validateAll = .error ⟨none, "x".toList, .volume⟩ := ⟨rfl, rfl⟩

end Props
