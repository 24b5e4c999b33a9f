import Verif.Spec.Repair
import Verif.Props.Validate

/- C103: what happens to valid and invalid files when they are edited. -/

namespace Props
open Rust Compose Spec

variable {M N V R : Type}

/-- `validate_all` in terms of the names used. -/
theorem validateAll_uses (f : File M N V R) : f.validateAll = .ok () ↔
    (∀ k, k ≠ .volume → ∀ s ∈ f.services, ∀ name ∈ namesUsed k s.2, Declared (sectionOf k f) name) ∧
      ∀ v, 2 ≤ (mentions f).count v → Declared f.volumes v := by
  rw [C27_validate_all_ok, (C23_validate_networks f).1, C25_validate_volumes, (C24_validate_configs f).1,
    (C24_validate_secrets f).1]
  constructor
  · rintro ⟨h1, h2, h3, h4⟩
    refine ⟨fun k hk => ?_, h2⟩
    cases k with
    | network => exact h1
    | volume => exact absurd rfl hk
    | config => exact h3
    | secret => exact h4
  · rintro ⟨h1, h2⟩
    exact ⟨h1 .network (by decide), h2, h1 .config (by decide), h1 .secret (by decide)⟩

theorem count_flatMap_sublist {α : Type} {h : α → List Str} {a b : List α} (hs : a.Sublist b) (v : Str) :
    (a.flatMap h).count v ≤ (b.flatMap h).count v := by
  induction hs with
  | slnil => exact Nat.le_refl _
  | cons x _ ih => rw [List.flatMap_cons, List.count_append]; omega
  | cons_cons x _ ih => rw [List.flatMap_cons, List.flatMap_cons, List.count_append, List.count_append]; omega

theorem count_flatMap_forall {α β : Type} {h : α → List Str} {h' : β → List Str} {a : List α} {b : List β}
    (hf : List.Forall₂ (fun x y => (h x).Subperm (h' y)) a b) (v : Str) : (a.flatMap h).count v ≤ (b.flatMap h').count v := by
  induction hf with
  | nil => exact Nat.le_refl _
  | cons hx _ ih =>
    rw [List.flatMap_cons, List.flatMap_cons, List.count_append, List.count_append]
    have := hx.count_le v
    omega

theorem forall₂_left {α β : Type} {r : α → β → Prop} {a : List α} {b : List β} (h : List.Forall₂ r a b) {x : α}
    (hx : x ∈ a) : ∃ y ∈ b, r x y := by
  induction h with
  | nil => cases hx
  | cons h1 _ ih =>
    rcases List.mem_cons.1 hx with rfl | hx
    · exact ⟨_, by simp, h1⟩
    · obtain ⟨y, hy, h⟩ := ih hx
      exact ⟨y, by simp [hy], h⟩

/-- C103: leaving out services, taking things away from services, and declaring more keeps a file valid. -/
theorem C103_smaller (f g : File M N V R) (h : Smaller f g) (hg : g.validateAll = .ok ()) : f.validateAll = .ok () := by
  obtain ⟨⟨kept, hk, hf⟩, hd⟩ := h
  rw [validateAll_uses] at hg ⊢
  refine ⟨fun k hkv s hs name hn => ?_, fun v hv => ?_⟩
  · obtain ⟨t, ht, hst⟩ : ∃ t ∈ kept, s.1 = t.1 ∧ UsesLess s.2 t.2 := by
      exact forall₂_left hf hs
    refine hd k name (hg.1 k hkv t (hk.subset ht) name ?_)
    exact hst.2.1 k hn
  · refine hd .volume v (hg.2 v (Nat.le_trans hv ?_))
    obtain ⟨l, hp, hl⟩ := hk
    have h1 : (mentions f).count v ≤ (kept.flatMap fun s => mountedVolumes s.2).count v :=
      count_flatMap_forall (hf.imp fun _ _ h => h.2.2) v
    have h2 : (kept.flatMap fun s => mountedVolumes s.2).count v = (l.flatMap fun s => mountedVolumes s.2).count v :=
      (hp.symm.flatMap_right _).count_eq v
    have h3 := count_flatMap_sublist (h := fun s : Str × Service M N V => mountedVolumes s.2) hl v
    exact Nat.le_trans h1 (h2 ▸ h3)

/-- The file without its first service, and without the configurations of the second one, after it was made valid. -/
example :
    let g : File Unit Unit Unit Unit := { exampleFile with
      networks := [("back".toList, ()), ("front".toList, ())], volumes := [("data".toList, ())],
      configs := [("other".toList, ()), ("conf".toList, ())] }
    let f : File Unit Unit Unit Unit := { g with services := (g.services.drop 1).map fun s => (s.1, { s.2 with configs := [] }) }
    Smaller f g ∧ g.validateAll = .ok () ∧ f.validateAll = .ok () := by
  intro g f
  have h : Smaller f g := by
    refine ⟨⟨g.services.drop 1, (List.drop_sublist ..).subperm, .cons ⟨rfl, fun k => ?_, ?_⟩ .nil⟩, fun k _ h => by cases k <;> exact h⟩
    · cases k
      · exact List.Subset.refl _
      · exact List.Subset.refl _
      · exact List.nil_subset _
      · exact List.Subset.refl _
    · exact List.Subperm.refl _
  exact ⟨h, rfl, C103_smaller f g h rfl⟩

theorem mem_allUses {f : File M N V R} {k : ResourceKind} {name : Str} :
    (k, name) ∈ allUses f ↔ ∃ s ∈ f.services, name ∈ namesUsed k s.2 := by
  unfold allUses
  simp only [List.mem_flatMap, List.mem_map, Prod.mk.injEq]
  constructor
  · rintro ⟨k', -, s, hs, n, hn, rfl, rfl⟩
    exact ⟨s, hs, hn⟩
  · rintro ⟨s, hs, hn⟩
    exact ⟨k, by cases k <;> simp, s, hs, name, hn, rfl, rfl⟩

/-- C103: what is reported is used by a service and not declared. -/
theorem C103_reported (f : File M N V R) (e : ValidationError) (h : f.validateAll = .error e) :
    (∃ s ∈ f.services, e.resource ∈ namesUsed e.kind s.2 ∧ ∀ n, e.service = some n → ∃ t, (n, t) ∈ f.services ∧ e.resource ∈ namesUsed e.kind t) ∧
      ¬ Declared (sectionOf e.kind f) e.resource := by
  have use : ∀ (uses : Service M N V → List Str) (map : List (Str × R)) (k : ResourceKind) (a : Except ValidationError Unit),
      (∀ s, uses s = namesUsed k s) → map = sectionOf k f → ChecksUse f.services uses (Declared map) k a → a = .error e →
      (∃ s ∈ f.services, e.resource ∈ namesUsed e.kind s.2 ∧ ∀ n, e.service = some n → ∃ t, (n, t) ∈ f.services ∧ e.resource ∈ namesUsed e.kind t) ∧
        ¬ Declared (sectionOf e.kind f) e.resource := by
    rintro uses map k a hu rfl hc ha
    obtain ⟨s, name, ⟨b, a, hs, -, -⟩, ⟨b', a', hn, hnd, -⟩, rfl⟩ := (hc.2 e).1 ha
    have hs' : s ∈ f.services := by rw [hs]; simp
    have hn' : name ∈ namesUsed k s.2 := by rw [← hu, hn]; simp
    refine ⟨⟨s, hs', hn', ?_⟩, hnd⟩
    intro n h; cases h; exact ⟨s.2, hs', hn'⟩
  rcases (C27_validate_all_error f e).1 h with h | ⟨-, h⟩ | ⟨-, -, h⟩ | ⟨-, -, -, h⟩
  · exact use _ _ .network _ (fun _ => rfl) rfl (C23_validate_networks f) h
  · obtain ⟨h1, h2, h3, h4⟩ := C25_validate_volumes_sound f e h
    rw [h3, h4]
    refine ⟨?_, h2⟩
    have : e.resource ∈ mentions f := List.count_pos_iff.1 (by omega)
    obtain ⟨s, hs, hm⟩ := List.mem_flatMap.1 this
    exact ⟨s, hs, hm, fun n h => by cases h⟩
  · exact use _ _ .config _ (fun _ => rfl) rfl (C24_validate_configs f) h
  · exact use _ _ .secret _ (fun _ => rfl) rfl (C24_validate_secrets f) h

example : ¬ Declared (sectionOf .network exampleFile) "front".toList := 
  (C103_reported exampleFile ⟨some "web".toList, "front".toList, .network⟩ rfl).2

theorem declared_declare {f : File M N V R} {k k' : ResourceKind} {name name' : Str} {r : R} :
    Declared (sectionOf k' (declare k name r f)) name' ↔ Declared (sectionOf k' f) name' ∨ (k' = k ∧ name' = name) := by
  cases k <;> cases k' <;> simp [declare, sectionOf, Declared, exists_or]

theorem services_declare {f : File M N V R} {k : ResourceKind} {name : Str} {r : R} :
    (declare k name r f).services = f.services := by cases k <;> rfl

theorem allUses_declare {f : File M N V R} {k : ResourceKind} {name : Str} {r : R} : allUses (declare k name r f) = allUses f := by
  unfold allUses; rw [services_declare]

/-- How many of the names used are not declared. -/
noncomputable def missing (f : File M N V R) : Nat :=
  open Classical in (allUses f).countP fun u => ¬ Declared (sectionOf u.1 f) u.2

theorem countP_lt {α : Type} {p q : α → Bool} {l : List α} (h : ∀ x ∈ l, q x = true → p x = true) {x : α} (hx : x ∈ l)
    (hp : p x = true) (hq : q x = false) : l.countP q < l.countP p := by
  induction l with
  | nil => cases hx
  | cons y ys ih =>
    rw [List.countP_cons, List.countP_cons]
    have hle : ys.countP q ≤ ys.countP p := List.countP_mono_left fun z hz => h z (by simp [hz])
    rcases List.mem_cons.1 hx with rfl | hx
    · rw [hp, hq]; simp; omega
    · have := ih (fun z hz => h z (by simp [hz])) hx
      have hy := h y (by simp)
      cases hqy : q y with
      | false => simp; omega
      | true => rw [hy hqy]; simp; omega

theorem missing_repair {f : File M N V R} {r : R} {e : ValidationError} (h : f.validateAll = .error e) :
    missing (repair r f) < missing f := by
  obtain ⟨⟨s, hs, hn, -⟩, hd⟩ := C103_reported f e h
  have hr : repair r f = declare e.kind e.resource r f := by unfold repair; rw [h]
  rw [hr]
  unfold missing
  rw [allUses_declare]
  refine countP_lt ?_ (x := (e.kind, e.resource)) (mem_allUses.2 ⟨s, hs, hn⟩) (by simp [hd]) (by simp [declared_declare])
  intro x _ hx
  simp only [decide_eq_true_eq, declared_declare, not_or] at hx ⊢
  exact hx.1

/-- C103: whoever declares what is reported, again and again, has a valid file after no more steps than there are names in the
services; the services stay as they are, no declaration is lost, and only names that are used are added. -/
theorem C103_repair (f : File M N V R) (r : R) (n : Nat) :
    ((allUses f).length ≤ n → (repairTimes r n f).validateAll = .ok ()) ∧
      (repairTimes r n f).services = f.services ∧
      (∀ k name, Declared (sectionOf k f) name → Declared (sectionOf k (repairTimes r n f)) name) ∧
      ∀ k name, Declared (sectionOf k (repairTimes r n f)) name → Declared (sectionOf k f) name ∨ (k, name) ∈ allUses f := by
  have step : ∀ g : File M N V R, (repair r g).services = g.services ∧
      (∀ k name, Declared (sectionOf k g) name → Declared (sectionOf k (repair r g)) name) ∧
      ∀ k name, Declared (sectionOf k (repair r g)) name → Declared (sectionOf k g) name ∨ (k, name) ∈ allUses g := by
    intro g
    cases hv : g.validateAll with
    | ok u =>
      have : repair r g = g := by unfold repair; rw [hv]
      rw [this]
      exact ⟨rfl, fun _ _ h => h, fun _ _ h => .inl h⟩
    | error e =>
      have : repair r g = declare e.kind e.resource r g := by unfold repair; rw [hv]
      rw [this]
      obtain ⟨⟨s, hs, hn, -⟩, -⟩ := C103_reported g e hv
      refine ⟨services_declare, fun k name h => declared_declare.2 (.inl h), fun k name h => ?_⟩
      rcases declared_declare.1 h with h | ⟨rfl, rfl⟩
      · exact .inl h
      · exact .inr (mem_allUses.2 ⟨s, hs, hn⟩)
  have stay : ∀ (n : Nat) (g : File M N V R), g.validateAll = .ok () → repairTimes r n g = g := by
    intro n
    induction n with
    | zero => intro g _; rfl
    | succ n ih =>
      intro g hg
      have : repair r g = g := by unfold repair; rw [hg]
      show repairTimes r n (repair r g) = g
      rw [this]
      exact ih g hg
  have done : ∀ (n : Nat) (g : File M N V R), missing g ≤ n → (repairTimes r n g).validateAll = .ok () := by
    intro n
    induction n with
    | zero =>
      intro g hg
      cases hv : g.validateAll with
      | ok u => exact hv
      | error e => have := missing_repair (r := r) hv; omega
    | succ n ih =>
      intro g hg
      cases hv : g.validateAll with
      | ok u => rw [stay _ g hv]; exact hv
      | error e => exact ih _ (by have := missing_repair (r := r) hv; omega)
  refine ⟨fun hn => done n f (Nat.le_trans List.countP_le_length hn), ?_⟩
  clear stay done
  induction n generalizing f with
  | zero => exact ⟨rfl, fun _ _ h => h, fun _ _ h => .inl h⟩
  | succ n ih =>
    obtain ⟨h1, h2, h3⟩ := ih (repair r f)
    obtain ⟨s1, s2, s3⟩ := step f
    have hu : allUses (repair r f) = allUses f := by unfold allUses; rw [s1]
    refine ⟨h1.trans s1, fun k name h => h2 k name (s2 k name h), fun k name h => ?_⟩
    rcases h3 k name h with h | h
    · exact s3 k name h
    · exact .inr (hu ▸ h)

example : (repairTimes () 7 exampleFile).validateAll = .ok () := (C103_repair exampleFile () 7).1 (by decide)

/-- C103: two valid files put together are valid exactly if every volume that both of them mount is declared in one of them. -/
theorem C103_together (f g : File M N V R) (hf : f.validateAll = .ok ()) (hg : g.validateAll = .ok ()) :
    (together f g).validateAll = .ok () ↔
      ∀ v, v ∈ mentions f → v ∈ mentions g → Declared f.volumes v ∨ Declared g.volumes v := by
  rw [validateAll_uses] at hf hg ⊢
  have hd : ∀ k name, Declared (sectionOf k (together f g)) name ↔
      Declared (sectionOf k f) name ∨ Declared (sectionOf k g) name := by
    intro k name
    cases k <;> simp [together, sectionOf, Declared, exists_or]
  have hm : ∀ v, (mentions (together f g)).count v = (mentions f).count v + (mentions g).count v := by
    intro v
    simp [mentions, together, List.count_append]
  have hv : ∀ v, Declared (together f g).volumes v ↔ Declared f.volumes v ∨ Declared g.volumes v := hd .volume
  constructor
  · rintro ⟨-, h⟩ v h1 h2
    have h1 := List.count_pos_iff.2 h1
    have h2 := List.count_pos_iff.2 h2
    exact (hv v).1 (h v (by rw [hm]; omega))
  · intro h
    refine ⟨fun k hk s hs name hn => (hd k name).2 ?_, fun v h2 => (hv v).2 ?_⟩
    · rcases List.mem_append.1 hs with hs | hs
      · exact .inl (hf.1 k hk s hs name hn)
      · exact .inr (hg.1 k hk s hs name hn)
    · rw [hm] at h2
      by_cases a : 2 ≤ (mentions f).count v
      · exact .inl (hf.2 v a)
      · by_cases b : 2 ≤ (mentions g).count v
        · exact .inr (hg.2 v b)
        · exact h v (List.count_pos_iff.1 (by omega)) (List.count_pos_iff.1 (by omega))

/-- Two files that each mount `data` once are valid, and together they are not, because neither of them declares it. -/
example :
    let one : Str → File Unit Unit Unit Unit := fun name =>
      { services := [(name, { volumes := [.short ⟨"/var".toList, some ⟨.volume "data".toList, false, none⟩⟩] })] }
    (together (one "a".toList) (one "b".toList)).validateAll ≠ .ok () ∧
      (together (one "a".toList) { one "b".toList with volumes := [("data".toList, ())] }).validateAll = .ok () := by
  intro one
  refine ⟨fun h => ?_, (C103_together _ _ rfl rfl).2 fun v h1 _ => .inr ?_⟩
  · rcases (C103_together (one "a".toList) (one "b".toList) rfl rfl).1 h "data".toList (by decide) (by decide) with ⟨_, h⟩ | ⟨_, h⟩ <;> cases h
  · have : v ∈ ["data".toList] := h1
    exact List.mem_singleton.1 this ▸ ⟨(), by simp⟩

/-! ### Examples -/

/-- `exampleFile` is repaired in three steps. -/
example : (allUses exampleFile).length = 7 := by decide
example : (repairTimes () 2 exampleFile).validateAll = .error ⟨some "web".toList, "other".toList, .config⟩ := by rfl
example : (repairTimes () 3 exampleFile).validateAll = .ok () := by rfl
example : ((repairTimes () 7 exampleFile).networks.map Prod.fst, (repairTimes () 7 exampleFile).volumes.map Prod.fst,
    (repairTimes () 7 exampleFile).configs.map Prod.fst) =
  (["back".toList, "front".toList], ["data".toList], ["conf".toList, "other".toList]) := by rfl

/-- The service `db` of `exampleFile`, alone; it stays valid without its mount. -/
def dbAlone : File Unit Unit Unit Unit where
  services := exampleFile.services.take 1
  networks := [("back".toList, ())]

/-- The service `web` of `exampleFile`, alone, with what it needs. -/
def webAlone : File Unit Unit Unit Unit where
  services := exampleFile.services.drop 1
  networks := [("back".toList, ()), ("front".toList, ())]
  configs := [("conf".toList, ()), ("other".toList, ())]

example : dbAlone.validateAll = .ok () := by rfl
example : webAlone.validateAll = .ok () := by rfl
/-- Both mount `data`, and neither declares it: together they are not valid. -/
example : (together dbAlone webAlone).validateAll = .error ⟨none, "data".toList, .volume⟩ := by rfl
example : (together { dbAlone with volumes := [("data".toList, ())] } webAlone).validateAll = .ok () := by rfl
/-- A valid file of which `dbAlone` without its mount, and with one more network, is a smaller one. -/
example : Smaller
    { dbAlone with
      services := [("db".toList, { networkConfig := some (.networks (.short ["back".toList])) })]
      networks := [("extra".toList, ()), ("back".toList, ()), ("front".toList, ())]
      volumes := [("data".toList, ())]
      configs := [("conf".toList, ()), ("other".toList, ())] }
    (together { dbAlone with volumes := [("data".toList, ())] } webAlone) := by
  refine ⟨⟨exampleFile.services.take 1, List.Sublist.subperm (by simp [together, dbAlone]), ?_⟩, ?_⟩
  · refine .cons ⟨rfl, ?_, List.nil_subperm⟩ .nil
    intro k
    cases k <;> exact fun _ h => by first | exact h | cases h
  · intro k name ⟨r, h⟩
    refine ⟨r, ?_⟩
    cases k <;> simp [sectionOf, together, dbAlone, webAlone] at h ⊢ <;> grind

end Props
