import Verif.Spec.Compare
import Verif.Props.Image
import Verif.Props.Ports
import Verif.Props.Volumes
import Verif.Props.Keys

/-
C79: comparing values with plain numbers.
C80: images compare as their parts do.
C81: the text of a validation error tells the error.
C82: all conversions to text agree.
-/

namespace Props
open Rust Compose Spec

/-! ### C79 -/

theorem hasPort_ext {r : Range} {a b : Nat} (hr : r.start ≤ lastPort r)
    (h : ∀ n, HasPort r n ↔ a ≤ n ∧ n ≤ b) : r.start = a ∧ lastPort r = b := by
  have h1 := (h r.start).1 ⟨Nat.le_refl _, hr⟩
  have h2 := (h (lastPort r)).1 ⟨hr, Nat.le_refl _⟩
  have h3 := (h a).2 ⟨Nat.le_refl _, by omega⟩
  have h4 := (h b).2 ⟨by omega, Nat.le_refl _⟩
  unfold HasPort at h3 h4
  omega

/-- C79: a port range equals an inclusive range of numbers exactly if they have the same ports (for ranges with ports). -/
theorem C79_inclusive (r : Range) (a b : Nat) (hr : r.start ≤ lastPort r) :
    r.eqInclusive a b = true ↔ ∀ n, HasPort r n ↔ a ≤ n ∧ n ≤ b := by
  have : r.eqInclusive a b = true ↔ r.start = a ∧ lastPort r = b := by simp [Range.eqInclusive, lastPort]
  rw [this]
  constructor
  · rintro ⟨rfl, rfl⟩ n; rfl
  · exact hasPort_ext hr

example : ∀ n, HasPort ⟨80, some 90⟩ n ↔ 80 ≤ n ∧ n ≤ 90 := (C79_inclusive _ _ _ (by decide)).1 (by decide)

theorem rangeOk_nonempty {r : Range} (h : RangeOk r) : r.start ≤ lastPort r := by
  obtain ⟨s, e⟩ := r
  cases e with
  | none => simp [lastPort]
  | some e => have := (h.2 e rfl).1; simp only [lastPort, Option.getD_some] at *; omega

/-- C79: ranges made by the checked constructors are equal exactly if they have the same ports. -/
theorem C79_ranges (r s : Range) (hr : RangeOk r) (hs : RangeOk s) : r = s ↔ ∀ n, HasPort r n ↔ HasPort s n := by
  constructor
  · rintro rfl n; rfl
  · intro h
    obtain ⟨h1, h2⟩ := hasPort_ext (rangeOk_nonempty hr) h
    obtain ⟨a, e⟩ := r
    obtain ⟨b, f⟩ := s
    simp only at h1
    subst h1
    cases e with
    | none =>
      cases f with
      | none => rfl
      | some f => have := (hs.2 f rfl).1; simp [lastPort] at h2; simp only at this; omega
    | some e =>
      cases f with
      | none => have := (hr.2 e rfl).1; simp [lastPort] at h2; simp only at this; omega
      | some f => simp [lastPort] at h2; subst h2; rfl

example : ¬ ∀ n, HasPort ⟨80, some 90⟩ n ↔ HasPort ⟨80, none⟩ n := fun h =>
  absurd ((C79_ranges _ _ ⟨by decide, by rintro e h; cases h; decide⟩ ⟨by decide, by simp⟩).2 h) (by decide)

/-- C79: a range made by the checked constructors equals a number exactly if that is its only port. -/
theorem C79_port_partial (r : Range) (n : Nat) (hr : RangeOk r) : r.eqU16 n = true ↔ ∀ m, HasPort r m ↔ m = n := by
  have hn : RangeOk ⟨n, none⟩ ↔ n ≤ 65535 := by simp [RangeOk]
  have hp : ∀ m, HasPort ⟨n, none⟩ m ↔ m = n := fun m => by simp only [HasPort, lastPort, Option.getD_none]; omega
  have he : r.eqU16 n = true ↔ r = ⟨n, none⟩ := by
    obtain ⟨s, e⟩ := r
    cases e <;> simp [Range.eqU16]
  rw [he]
  constructor
  · rintro rfl; exact hp
  · intro h
    have : r.start = n := (h r.start).1 ⟨Nat.le_refl _, rangeOk_nonempty hr⟩
    refine (C79_ranges r _ hr (hn.2 (this ▸ hr.1))).2 fun m => by rw [h, hp]

example : ∀ m, HasPort ⟨80, none⟩ m ↔ m = 80 := (C79_port_partial _ _ ⟨by decide, by simp⟩).1 (by decide)

/-- C79: not so for ranges read from text: `80-80` has the one port 80, but is not equal to 80, nor to the range from 80 to
80 that the constructor makes, although it is equal to `80..=80`. -/
theorem C79_port_false : ∃ r, Range.fromStr "80-80".toList = .ok r ∧ (∀ m, HasPort r m ↔ m = 80) ∧ r.eqU16 80 = false ∧
    r.eqInclusive 80 80 = true ∧ ∃ s, Range.new 80 (some 80) = .ok s ∧ r ≠ s := by
  refine ⟨⟨80, some 80⟩, by decide, fun m => ?_, by decide, by decide, ⟨80, none⟩, by decide, by decide⟩
  simp only [HasPort, lastPort, Option.getD_some]
  omega

/-- C79: this is the only exception: a range read from text equals a number exactly if that is its only port and the text
is not of the form `n-n`. -/
theorem C79_port_text (s : Str) (r : Range) (n : Nat) (h : Range.fromStr s = .ok r) :
    r.eqU16 n = true ↔ (∀ m, HasPort r m ↔ m = n) ∧ '-' ∉ s := by
  rw [C13_range_accepts] at h
  cases h with
  | single h =>
    obtain ⟨ds, hs, hd, _, hm⟩ := h
    rw [C79_port_partial _ _ ⟨hm, by simp⟩]
    refine (and_iff_left ?_).symm
    have : '-' ∉ ds := fun hc => absurd (hd.2 _ hc) (by decide)
    rcases hs with rfl | rfl
    · exact this
    · simp [this]
  | range h => simp [Range.eqU16]

example : Range.fromStr "80-80".toList = .ok ⟨80, some 80⟩ ∧ Range.fromStr "+80".toList = .ok ⟨80, none⟩ := by decide

/-- C79: an inclusive range of numbers is converted to a range that is equal to it and has its ports. -/
theorem C79_convert (a b : Nat) (r : Range) (h : Range.ofInclusive a b = .ok r) :
    r.eqInclusive a b = true ∧ ∀ n, HasPort r n ↔ a ≤ n ∧ n ≤ b := by
  unfold Range.ofInclusive Range.new at h
  simp only at h
  split at h <;> cases h
  · exact ⟨by simp [Range.eqInclusive], fun n => by simp [HasPort, lastPort]⟩
  · rename_i he
    have := Nat.compare_eq_eq.1 he
    subst this
    exact ⟨by simp [Range.eqInclusive], fun n => by simp [HasPort, lastPort]⟩

example : ∀ n, HasPort ⟨80, some 90⟩ n ↔ 80 ≤ n ∧ n ≤ 90 := (C79_convert 80 90 ⟨80, some 90⟩ (by decide)).2

/-- C79: an inclusive range of numbers can be converted exactly if it is not reversed. -/
theorem C79_convertible (a b : Nat) : (∃ r, Range.ofInclusive a b = .ok r) ↔ a ≤ b := by
  unfold Range.ofInclusive Range.new
  simp only
  split
  · rename_i h; simp [Nat.le_of_lt (Nat.compare_eq_lt.1 h)]
  · rename_i h; simp [Nat.compare_eq_eq.1 h]
  · rename_i h; simpa using Nat.compare_eq_gt.1 h

example : ∃ r, Range.ofInclusive 80 80 = .ok r := (C79_convertible 80 80).2 (by decide)

/-- C79: a device count equals a number exactly if it is written as that number. -/
theorem C79_count (c : Count) (n : Nat) : c.eqNat n = true ↔ c.serialize = .u64 n := by
  cases c <;> simp [Count.eqNat, Count.serialize]

example : (Count.integer 3).eqNat 3 = true ∧ Count.all.eqNat 3 = false := by decide

/-- C79: a major or minor number equals a number exactly if it is displayed as that number. -/
theorem C79_major_minor (c : MajorMinorNumber) (n : Nat) : c.eqNat n = true ↔ c.display = showNat n := by
  cases c with
  | all =>
    simp only [MajorMinorNumber.eqNat, MajorMinorNumber.display, Bool.false_eq_true, false_iff]
    intro h
    have := isDigit_of_mem_showNat (n := n) (c := '*') (h ▸ List.mem_singleton_self _)
    revert this
    decide
  | integer m =>
    simp only [MajorMinorNumber.eqNat, MajorMinorNumber.display, beq_iff_eq]
    exact ⟨fun h => h ▸ rfl, fun h => by rw [← digitsValue_showNat m, h, digitsValue_showNat]⟩

example : (Range.mk 80 none).eqU16 80 = true ∧ RangeOk ⟨80, none⟩ ∧ (Range.mk 80 (some 90)).eqInclusive 80 90 = true ∧
    (Range.mk 80 (some 90)).eqU16 80 = false := ⟨rfl, ⟨by decide, by simp⟩, rfl, rfl⟩

/-! ### C80 -/

theorem shows_unique {i j : Image} {p : ImageParts} (hi : Shows i p) (hj : Shows j p) : i = j := by
  rw [((shows_iff _ _).1 hi).1, ((shows_iff _ _).1 hj).1]

/-- C80: two parsed images are equal exactly if all getters agree. -/
theorem C80_equal_partial (s t : Str) (i j : Image) (hi : Image.parse s = .ok i) (hj : Image.parse t = .ok j) :
    i.eq j = true ↔ ∃ p, Shows i p ∧ Shows j p := by
  have ei := (C30_parse_parts s i hi).1
  have ej := (C30_parse_parts t j hj).1
  simp only [Image.asStr] at ei ej
  constructor
  · intro h
    simp only [Image.eq, beq_iff_eq] at h
    have : s = t := by rw [← ei, ← ej, h]
    subst this
    rw [hi] at hj
    cases hj
    obtain ⟨_, name, label, _, _, _, hs⟩ := C30_parse_parts s i hi
    exact ⟨_, hs, hs⟩
  · rintro ⟨p, h1, h2⟩
    rw [shows_unique h1 h2]
    simp [Image.eq]

example : ∃ i j, Image.parse "a.b/c:t".toList = .ok i ∧ Image.parse "a.b/c:t".toList = .ok j ∧ ∃ p, Shows i p ∧ Shows j p :=
  ⟨_, _, rfl, rfl, (C80_equal_partial "a.b/c:t".toList "a.b/c:t".toList _ _ rfl rfl).1 rfl⟩

/-- C80: images with the same parts are equal, however they were made. -/
theorem C80_same_parts (i j : Image) (p : ImageParts) (hi : Shows i p) (hj : Shows j p) : i.eq j = true := by
  rw [shows_unique hi hj]
  simp [Image.eq]

example : ∃ i j k, Image.parse "a.b/c:t".toList = .ok i ∧ Image.parse "a.b/c".toList = .ok j ∧
    j.setTag (some "t".toList) = some k ∧ i.eq k = true := ⟨_, _, _, rfl, rfl, rfl, rfl⟩

/-- C80: but images that have been edited can be equal although they have different parts: `a.b:80:t` without its tag is
the registry `a.b:80`, equal to the image `a.b` with the tag 80. -/
theorem C80_equal_false : ∃ i j k, Image.parse "a.b:80:t".toList = .ok i ∧ i.setTag none = some j ∧
    Image.parse "a.b:80".toList = .ok k ∧ j.eq k = true ∧ j.tag = some none ∧ k.tag = some (some "80".toList) :=
  ⟨_, _, _, rfl, rfl, rfl, by decide, by decide, by decide⟩

/-- C80: a parsed image is equal to a text exactly if it was parsed from it. -/
theorem C80_text (s t : Str) (i : Image) (hi : Image.parse s = .ok i) : i.eqStr t = true ↔ t = s := by
  have ei := (C30_parse_parts s i hi).1
  simp only [Image.asStr] at ei
  rw [Image.eqStr, ei, beq_iff_eq, eq_comm]

example : ∃ i, Image.parse "a.b/c:t".toList = .ok i ∧ i.eqStr "a.b/c:t".toList = true ∧ i.eqStr "a.b/c".toList = false :=
  ⟨_, rfl, rfl, rfl⟩

theorem compareStr_lt (s t : Str) : compareStr s t = .lt ↔ Before s t := by
  induction s generalizing t with
  | nil =>
    cases t with
    | nil => simp only [compareStr, reduceCtorEq, false_iff]; intro h; cases h
    | cons b t => exact ⟨fun _ => .end, fun _ => rfl⟩
  | cons a s ih =>
    cases t with
    | nil => simp only [compareStr, reduceCtorEq, false_iff]; intro h; cases h
    | cons b t =>
      rw [compareStr, Ordering.then_eq_lt, Nat.compare_eq_lt, Nat.compare_eq_eq, ih]
      constructor
      · rintro (h | ⟨h, h'⟩)
        · exact .here h
        · rw [show a = b from Char.toNat_inj.1 h]; exact .later h'
      · intro h
        cases h with
        | here h => exact .inl h
        | later h => exact .inr ⟨rfl, h⟩

theorem compareStr_eq (s t : Str) : compareStr s t = .eq ↔ s = t := by
  induction s generalizing t with
  | nil => cases t <;> simp [compareStr]
  | cons a s ih =>
    cases t with
    | nil => simp [compareStr]
    | cons b t => rw [compareStr, Ordering.then_eq_eq, Nat.compare_eq_eq, ih, Char.toNat_inj]; simp

theorem compareStr_swap (s t : Str) : (compareStr s t).swap = compareStr t s := by
  induction s generalizing t with
  | nil => cases t <;> rfl
  | cons a s ih =>
    cases t with
    | nil => rfl
    | cons b t => rw [compareStr, compareStr, Ordering.swap_then, ih, Nat.compare_swap]

/-- C80: images are ordered as their texts are in a dictionary. -/
theorem C80_order (i j : Image) :
    (i.cmp j = .lt ↔ Before i.asStr j.asStr) ∧ (i.cmp j = .gt ↔ Before j.asStr i.asStr) ∧
      (i.cmp j = .eq ↔ i.eq j = true) := by
  refine ⟨compareStr_lt _ _, ?_, ?_⟩
  · rw [← compareStr_lt, ← compareStr_swap, Ordering.swap_eq_lt]; rfl
  · simp only [Image.cmp, compareStr_eq, Image.eq, beq_iff_eq]

example : ∃ i j, Image.parse "alpine".toList = .ok i ∧ Image.parse "alpine:3".toList = .ok j ∧ i.cmp j = .lt ∧ j.cmp i = .gt :=
  ⟨_, _, rfl, rfl, rfl, rfl⟩

theorem before_trans {s t u : Str} (h : Before s t) (h' : Before t u) : Before s u := by
  induction h generalizing u with
  | «end» => cases h' <;> exact .end
  | here h =>
    cases h' with
    | here h' => exact .here (Nat.lt_trans h h')
    | later h' => exact .here h
  | later h ih =>
    cases h' with
    | here h' => exact .here h'
    | later h' => exact .later (ih h')

/-- C80: the order is transitive, so sorting is well defined. -/
theorem C80_order_trans (i j k : Image) (h : i.cmp j = .lt) (h' : j.cmp k = .lt) : i.cmp k = .lt :=
  (C80_order i k).1.2 (before_trans ((C80_order i j).1.1 h) ((C80_order j k).1.1 h'))

example : ∃ i j k, Image.parse "alpine".toList = .ok i ∧ Image.parse "alpine:3".toList = .ok j ∧
    Image.parse "busybox".toList = .ok k ∧ i.cmp j = .lt ∧ j.cmp k = .lt ∧ i.cmp k = .lt :=
  ⟨_, _, _, rfl, rfl, rfl, rfl, rfl, rfl⟩

/-- C80: equal images have the same hash. -/
theorem C80_hash {S : Type} (hashStr : Str → S → S) (i j : Image) (h : i.eq j = true) (s : S) :
    i.hash hashStr s = j.hash hashStr s := by
  simp only [Image.eq, beq_iff_eq] at h
  rw [Image.hash, h, Image.hash]

example : Before "alpine".toList "alpine:3".toList ∧ Before "alpine:3".toList "busybox".toList :=
  ⟨.later <| .later <| .later <| .later <| .later <| .later .end, .here (by decide)⟩

/-! ### C81 -/

/-- Texts that agree up to the first occurrence of a character. -/
theorem cut_unique {c : Char} {a b x y : Str} (ha : c ∉ a) (hb : c ∉ b) (h : a ++ c :: x = b ++ c :: y) : a = b ∧ x = y := by
  induction a generalizing b with
  | nil =>
    cases b with
    | nil => exact ⟨rfl, by simpa using h⟩
    | cons d b => simp only [List.nil_append, List.cons_append, List.cons.injEq] at h; simp [h.1] at hb
  | cons d a ih =>
    cases b with
    | nil => simp only [List.nil_append, List.cons_append, List.cons.injEq] at h; simp [← h.1] at ha
    | cons e b =>
      simp only [List.cons_append, List.cons.injEq] at h
      obtain ⟨rfl, h⟩ := h
      obtain ⟨rfl, rfl⟩ := ih (fun h => ha (List.mem_cons_of_mem _ h)) (fun h => hb (List.mem_cons_of_mem _ h)) h
      exact ⟨rfl, rfl⟩

/-- C81: the whole text of each error that validation returns: three kinds are missing for a service, a volume for several. -/
theorem C81_message (x s : Str) :
    (ValidationError.mk (some s) x .network).display =
        "network `".toList ++ x ++ "` (used in the `".toList ++ s ++
          "` service) is not defined in the top-level `networks` field".toList ∧
      (ValidationError.mk (some s) x .config).display =
        "config `".toList ++ x ++ "` (used in the `".toList ++ s ++
          "` service) is not defined in the top-level `configs` field".toList ∧
      (ValidationError.mk (some s) x .secret).display =
        "secret `".toList ++ x ++ "` (used in the `".toList ++ s ++
          "` service) is not defined in the top-level `secrets` field".toList ∧
      (ValidationError.mk none x .volume).display =
        "volume `".toList ++ x ++
          "` is used across multiple services and is not defined in the top-level `volumes` field".toList := by
  refine ⟨?_, ?_, ?_, ?_⟩ <;>
    simp [ValidationError.display, ValidationError.usedIn, ValidationError.across, ResourceKind.asStr]

/-- A network without definition. -/
example : (ValidationError.mk (some "web".toList) "front".toList .network).display =
    "network `front` (used in the `web` service) is not defined in the top-level `networks` field".toList := by decide

/-- C81: the text of a validation error tells the kind of resource, its name and the service: different errors have
different texts. -/
theorem C81_tells (e f : ValidationError) (he : Identifier e.resource) (hf : Identifier f.resource)
    (hes : ∀ s, e.service = some s → Identifier s) (hfs : ∀ s, f.service = some s → Identifier s)
    (h : e.display = f.display) : e = f := by
  have tick : ∀ {s}, Identifier s → '`' ∉ s := fun h => identifier_not_mem h (by decide)
  obtain ⟨s, r, k⟩ := e
  obtain ⟨s', r', k'⟩ := f
  simp only at he hf hes hfs
  have hk : ∀ (k : ResourceKind), '`' ∉ k.asStr ++ str!" " := fun k => by cases k <;> decide
  have h0 : ∀ (s : Option Str) (r : Str) (k : ResourceKind), (ValidationError.mk s r k).display =
      (k.asStr ++ str!" ") ++ '`' :: (r ++ '`' :: (' ' :: (ValidationError.usedIn s ++ (ValidationError.across k ++
        (str!"is not defined in the top-level `" ++ (k.asStr ++ str!"s` field")))))) := fun s r k => by
    rw [List.append_assoc]; rfl
  rw [h0, h0] at h
  obtain ⟨h1, h2⟩ := cut_unique (hk _) (hk _) h
  obtain ⟨h3, h4⟩ := cut_unique (tick he) (tick hf) h2
  have h5 : k = k' := by revert h1; clear * -; cases k <;> cases k' <;> decide
  clear h h2
  subst h3 h5
  have h6 := List.append_cancel_right (List.cons.inj h4).2
  cases s with
  | none =>
    cases s' with
    | none => rfl
    | some s' => cases h6
  | some s =>
    cases s' with
    | none => cases h6
    | some s' => rw [List.append_cancel_right (List.append_cancel_left h6)]

/-- C81: the whole text, for a network of a service and for a volume. -/
example : (ValidationError.mk (some "web".toList) "front".toList .network).display =
      "network `front` (used in the `web` service) is not defined in the top-level `networks` field".toList ∧
    (ValidationError.mk none "data".toList .volume).display =
      "volume `data` is used across multiple services and is not defined in the top-level `volumes` field".toList := by
  decide

/-! ### C82 -/

/-- C82: every way to turn a value into text gives the text it is displayed as. -/
theorem C82_texts (ft : FloatText) (t : TextForms) (ht : t ∈ textForms ft) (x : t.Ty) :
    t.string x = t.display x ∧ ∀ f ∈ t.cow, f x = t.display x := by
  simp only [textForms, List.mem_cons, List.not_mem_nil, or_false] at ht
  rcases ht with rfl | rfl | rfl | rfl | rfl | rfl | rfl | rfl | rfl | rfl | rfl | rfl | rfl | rfl
  · cases x <;> simp [Driver.intoString, Driver.intoCow, Driver.asStr]
  · cases x <;> simp [NetworkMode.intoString, NetworkMode.intoCow, NetworkMode.display]
  · cases x <;> simp [EndpointMode.intoString, EndpointMode.intoCow, EndpointMode.asStr]
  · cases x <;> simp [Capability.intoString, Capability.intoCow, Capability.asStr]
  · cases x <;> simp [Protocol.intoString, Protocol.intoCow, Protocol.asStr]
  · cases x <;> simp [BuildNetwork.intoString, BuildNetwork.intoCow, buildNetworkAsStr]
  · cases x <;> simp [IdOrName.intoString, IdOrName.display]
  · obtain ⟨u, g⟩ := x
    cases g <;> cases u <;> simp [User.intoString, User.display, IdOrName.intoString, IdOrName.display]
  · cases x <;> simp [Value.intoString, Value.show]
  · cases x <;> simp [StringOrNumber.intoString, StringOrNumber.show]
  · obtain ⟨s, a⟩ := x
    cases a <;> simp [Link.intoString, Link.display]
  · cases x <;> simp [Ipc.intoString, Ipc.intoCow, Ipc.display]
  · cases x <;> simp [VolumesFromSource.intoString, VolumesFromSource.display]
  · obtain ⟨s, r⟩ := x
    cases r <;> cases s <;> simp [VolumesFrom.intoString, VolumesFrom.display, VolumesFromSource.intoString,
      VolumesFromSource.display]

/-- C82: a build network as an option: `none` is no network, every other text is the name. -/
theorem C82_build_network (s : Str) (n : BuildNetwork) (h : buildNetworkParse s = .ok n) :
    n.intoOption = if s = str!"none" then none else some s := by
  unfold buildNetworkParse at h
  split at h
  · cases h; rename_i hs; simp [BuildNetwork.intoOption, hs]
  · rename_i hs
    rw [if_neg hs]
    split at h <;> cases h
    rename_i hi
    simp [BuildNetwork.intoOption, ((C01_identifier_accepts _ _).1 hi).2]

example : VolumesFrom.intoString ⟨.container "db".toList, true⟩ = "container:db:ro".toList ∧
    User.intoString ⟨.id 1000, some (.name "staff".toList)⟩ = "1000:staff".toList := by decide

end Props
