import Verif.Spec.Release
import Verif.Props.Ports
import Verif.Props.CpuSet
import Verif.Proofs.Image

/- Theorems about builds without overflow checks (C95). -/

namespace Props
open Rust Compose Spec

/-! ### Where the checked build does not panic, both builds do the same -/

/-- C95: sizing and moving a range. -/
theorem C95_same_range (r : Range) (n : Nat) (hr : PortNumbers r) (hn : n ≤ 65535) :
    (∀ k, r.size = some k → Release.size r = k) ∧
    (∀ r', r.add n = some r' → Release.add r n = r') ∧
    (∀ r', r.sub n = some r' → Release.sub r n = r') := by
  obtain ⟨s, e⟩ := r
  obtain ⟨h1, h2⟩ := hr
  refine ⟨fun k h => ?_, ?_, ?_⟩
  · simp only at h1 h2
    cases e with
    | none => simpa [Range.size, Release.size] using h
    | some e =>
      have h2 := h2 e rfl
      simp only [Range.size, u16Max] at h
      by_cases ha : e < s
      · simp [ha] at h
      · by_cases hb : e - s + 1 > 65535
        · simp [ha, hb] at h
        · simp only [ha, hb, if_false, Option.some.injEq] at h
          simp only [Release.size, Release.add16, Release.sub16]; omega
  · rintro ⟨s', e'⟩ h
    rw [C13_range_add_any] at h
    obtain ⟨g1, g2, g3, g4⟩ := h
    simp only at g1 g2 g3 g4 h1 h2
    subst g3 g4
    cases e with
    | none => simp only [Release.add, Release.add16, Option.map_none, Range.mk.injEq, and_true]; omega
    | some e =>
      have g2 := g2 e rfl
      simp only [Release.add, Release.add16, Option.map_some, Range.mk.injEq, Option.some.injEq]; omega
  · rintro ⟨s', e'⟩ h
    rw [C13_range_sub_any] at h
    obtain ⟨g1, g2, g3, g4⟩ := h
    simp only at g1 g2 g3 g4 h1 h2
    subst g3 g4
    cases e' with
    | none => simp only [Release.sub, Release.sub16, Option.map_none, Range.mk.injEq, and_true]; omega
    | some e' =>
      have g2 := g2 _ rfl
      have h2 := h2 _ rfl
      simp only at g2 h2
      simp only [Release.sub, Release.sub16, Option.map_some, Range.mk.injEq, Option.some.injEq]; omega

example : Release.add ⟨80, some 90⟩ 5 = ⟨85, some 95⟩ :=
  (C95_same_range ⟨80, some 90⟩ 5 ⟨by decide, by rintro e h; cases h; decide⟩ (by decide)).2.1 _ (by decide)

/-- C95: moving a range wraps around: its ports are moved up, or down, and what is moved up and down again is the same range. -/
theorem C95_moved (r : Range) (n : Nat) (hr : PortNumbers r) (hn : n ≤ 65535) :
    MovedUp n r (Release.add r n) ∧ MovedUp n (Release.sub r n) r ∧
    Release.sub (Release.add r n) n = r ∧ Release.add (Release.sub r n) n = r := by
  obtain ⟨s, e⟩ := r
  obtain ⟨h1, h2⟩ := hr
  simp only at h1 h2
  cases e with
  | none =>
    simp only [MovedUp, PortsAbove, Release.add, Release.sub, Release.add16, Release.sub16, Option.map_none, Range.mk.injEq,
      and_true]
    omega
  | some e =>
    have h2 := h2 e rfl
    simp only [MovedUp, PortsAbove, Release.add, Release.sub, Release.add16, Release.sub16, Option.map_some, Range.mk.injEq,
      Option.some.injEq]
    omega

example : Release.add ⟨65530, some 65535⟩ 3 = ⟨65533, some 2⟩ := rfl
example : PortNumbers ⟨65530, some 65535⟩ := ⟨by decide, by rintro e ⟨⟩; decide⟩

/-- C95: what is moved is a range with its first port below its last exactly if all of its ports or none of them wrap around. -/
theorem C95_moved_ok (r : Range) (n : Nat) (hr : RangeOk r) (hn : n ≤ 65535) :
    (RangeOk (Release.add r n) ↔ lastPort r + n ≤ 65535 ∨ 65535 < r.start + n) ∧
    (RangeOk (Release.sub r n) ↔ n ≤ r.start ∨ lastPort r < n) := by
  obtain ⟨s, e⟩ := r
  obtain ⟨h1, h2⟩ := hr
  simp only at h1 h2
  cases e with
  | none => simp [RangeOk, lastPort, Release.add, Release.sub, Release.add16, Release.sub16]; omega
  | some e =>
    have h2 := h2 e rfl
    simp [RangeOk, lastPort, Release.add, Release.sub, Release.add16, Release.sub16]; omega

example : ¬ RangeOk (Release.sub ⟨1, some 5⟩ 3) :=
  fun h => absurd ((C95_moved_ok ⟨1, some 5⟩ 3 ⟨by decide, by rintro e ⟨⟩; decide⟩ (by decide)).2.1 h) (by decide)

theorem rangeSizeEq_same {host : Option Range} {c : Range} (hh : ∀ h, host = some h → PortNumbers h) (hc : PortNumbers c)
    (hp : rangeSizeEq host c ≠ .panic) : .ofExcept (Release.rangeSizeEq host c) = rangeSizeEq host c := by
  cases host with
  | none => rfl
  | some h =>
    have e1 := (C95_same_range h 0 (hh h rfl) (by decide)).1
    have e2 := (C95_same_range c 0 hc (by decide)).1
    simp only [rangeSizeEq] at hp ⊢
    cases h1 : h.size with
    | none => simp [h1] at hp
    | some a =>
      cases h2 : c.size with
      | none => simp [h1, h2] at hp
      | some b =>
        simp only [Release.rangeSizeEq, e1 a h1, e2 b h2]
        split <;> rfl

/-- C95: making and changing a pair of ranges. -/
theorem C95_same_ranges (host : Option Range) (c : Range) (r : ShortRanges) (x : Range)
    (hh : ∀ h, host = some h → PortNumbers h) (hc : PortNumbers c)
    (hr : ∀ h, r.host = some h → PortNumbers h) (hr' : PortNumbers r.container) (hx : PortNumbers x) :
    (ShortRanges.new host c ≠ .panic → .ofExcept (Release.new host c) = ShortRanges.new host c) ∧
    ((r.replaceHost x).2 ≠ .panic →
      (Release.replaceHost r x).1 = (r.replaceHost x).1 ∧ .ofExcept (Release.replaceHost r x).2 = (r.replaceHost x).2) ∧
    ((r.replaceContainer x).2 ≠ .panic →
      (Release.replaceContainer r x).1 = (r.replaceContainer x).1 ∧
        .ofExcept (Release.replaceContainer r x).2 = (r.replaceContainer x).2) := by
  refine ⟨fun h => ?_, fun h => ?_, fun h => ?_⟩
  · have hp : rangeSizeEq host c ≠ .panic := fun e => h (by simp [ShortRanges.new, e])
    simp only [ShortRanges.new, Release.new, ← rangeSizeEq_same hh hc hp]
    cases Release.rangeSizeEq host c <;> rfl
  · have hp : rangeSizeEq (some x) r.container ≠ .panic := fun e => h (by simp [ShortRanges.replaceHost, e])
    simp only [ShortRanges.replaceHost, Release.replaceHost,
      ← rangeSizeEq_same (by rintro h ⟨⟩; exact hx) hr' hp]
    cases Release.rangeSizeEq (some x) r.container <;> exact ⟨rfl, rfl⟩
  · have hp : rangeSizeEq r.host x ≠ .panic := fun e => h (by simp [ShortRanges.replaceContainer, e])
    simp only [ShortRanges.replaceContainer, Release.replaceContainer, ← rangeSizeEq_same hr hx hp]
    cases Release.rangeSizeEq r.host x <;> exact ⟨rfl, rfl⟩

example : ShortRanges.new (some ⟨8, some 9⟩) ⟨80, some 81⟩ ≠ .panic ∧
    Release.new (some ⟨8, some 9⟩) ⟨80, some 81⟩ = .ok ⟨some ⟨8, some 9⟩, ⟨80, some 81⟩⟩ := by decide

theorem portNumbers_of_fromStr {s : Str} {r : Range} (h : Range.fromStr s = .ok r) : PortNumbers r :=
  ⟨(C14_range_parse_validates_partial s r h).1, (C14_range_parse_validates_partial s r h).2.1⟩

theorem parseRanges_same (s : Str) (hp : ShortRanges.fromStr s ≠ .panic) :
    .ofExcept (Release.parseRanges s) = ShortRanges.fromStr s := by
  unfold ShortRanges.fromStr Release.parseRanges at *
  cases hs : splitOnce ':' s with
  | none =>
    cases hr : Range.fromStr s <;> rfl
  | some ab =>
    obtain ⟨a, b⟩ := ab
    simp only [hs] at hp ⊢
    generalize hh : (if a.isEmpty then .ok none else match Range.fromStr a with
      | .ok r => .ok (some r)
      | .error e => .error e : Except ParseRangeError (Option Range)) = host at hp ⊢
    cases host with
    | error e => rfl
    | ok host =>
      cases hc : Range.fromStr b with
      | error e => rfl
      | ok c =>
        simp only [hc] at hp
        have hn : ShortRanges.new host c ≠ .panic := fun e => hp (by simp [e])
        have hhost : ∀ h, host = some h → PortNumbers h := by
          rintro h rfl
          split at hh
          · cases hh
          · split at hh
            · cases hh; exact portNumbers_of_fromStr (by assumption)
            · cases hh
        simp only [← (C95_same_ranges host c ⟨none, c⟩ c hhost (portNumbers_of_fromStr hc) (by simp)
          (portNumbers_of_fromStr hc) (portNumbers_of_fromStr hc)).1 hn]
        cases Release.new host c <;> rfl

/-- C95: reading pairs of ranges and short ports. -/
theorem C95_same_parse {Ip E : Type} (ipParse : Str → Except E Ip) (s : Str) :
    (ShortRanges.fromStr s ≠ .panic → .ofExcept (Release.parseRanges s) = ShortRanges.fromStr s) ∧
    (ShortPort.fromStr ipParse s ≠ .panic → .ofExcept (Release.parsePort ipParse s) = ShortPort.fromStr ipParse s) := by
  refine ⟨parseRanges_same s, fun hp => ?_⟩
  unfold ShortPort.fromStr Release.parsePort at *
  cases hs : ShortPort.splitHostIp ipParse (splitProtocol s).1 with
  | error e => rfl
  | ok x =>
    obtain ⟨ip, rest⟩ := x
    simp only [hs] at hp ⊢
    have hn : ShortRanges.fromStr rest ≠ .panic := fun e => hp (by simp [e])
    simp only [← parseRanges_same rest hn]
    cases Release.parseRanges rest <;> rfl

example : ShortRanges.fromStr "8-9:80".toList ≠ .panic ∧ Release.parseRanges "8-9:80".toList = .error (.shortRanges ⟨2, 1⟩) := by
  decide

theorem cpuSetLoop_same (out : Str) (first : Bool) (start last : Nat) (iter : List Nat)
    (hinc : Increasing (last :: iter)) (hmax : ∀ x ∈ last :: iter, x ≤ u64Max) :
    CpuSet.displayLoop out first start last iter = some (Release.cpuSetLoop out first start last iter) := by
  induction iter generalizing out first start last with
  | nil => rfl
  | cons cpu iter ih =>
    have h1 : last < cpu := (List.pairwise_cons.1 hinc).1 cpu (by simp)
    have h2 : cpu ≤ 18446744073709551615 := hmax cpu (by simp)
    have hm : (last + 1) % 18446744073709551616 = last + 1 := Nat.mod_eq_of_lt (by omega)
    have hi := (List.pairwise_cons.1 hinc).2
    have hx : ∀ x ∈ cpu :: iter, x ≤ u64Max := fun x hx => hmax x (by simp [List.mem_cons.1 hx])
    unfold CpuSet.displayLoop Release.cpuSetLoop
    rw [if_neg (by simp only [u64Max]; omega), hm]
    split
    · exact ih _ _ _ _ hi hx
    · exact ih _ _ _ _ hi hx

/-- C95: writing a set of CPUs. -/
theorem C95_same_cpu_set (s : List Nat) (hs : Increasing s) (hmax : ∀ x ∈ s, x ≤ 18446744073709551615) :
    CpuSet.display s = some (Release.cpuSetDisplay s) := by
  cases s with
  | nil => rfl
  | cons cpu iter => exact cpuSetLoop_same _ _ _ _ _ hs hmax

example : CpuSet.display [0, 1, 5] = some (Release.cpuSetDisplay [0, 1, 5]) :=
  C95_same_cpu_set _ (by simp [Increasing]) (by simp)

theorem updateStart_same {old new : Nat} {s : Option Image.Start} {r : Option Image.Start}
    (hs : ∀ x, s = some x → x.intoInner < 9223372036854775808) (hn : new ≤ 9223372036854775808)
    (h : Image.updateStart old new s = some r) : Release.updateStart old new s = r := by
  cases s with
  | none => simpa [Image.updateStart, Release.updateStart] using h
  | some s =>
    have hs := hs s rfl
    unfold Image.updateStart at h
    unfold Release.updateStart
    simp only at h ⊢
    split at h
    · rename_i hlt
      rw [if_pos hlt]
      cases h
      congr 1
      cases s <;> simp only [Image.Start.intoInner] at hs <;>
        simp only [Image.Start.map, Release.add64, Image.Start.tag.injEq, Image.Start.digest.injEq] <;> omega
    · rename_i hlt
      rw [if_neg hlt]
      split at h
      · rename_i he
        rw [if_pos he]
        cases h; rfl
      · rename_i he
        rw [if_neg he]
        split at h
        · cases h
          congr 1
          cases s <;> simp only [Image.Start.intoInner] at * <;>
            simp only [Image.Start.map, Release.sub64, Image.Start.tag.injEq, Image.Start.digest.injEq] <;> omega
        · cases h

theorem splitAtByte_past {n : Nat} {s : Str} (h : byteLen s < n) : splitAtByte n s = none := by
  cases hc : splitAtByte n s with
  | none => rfl
  | some ab =>
    obtain ⟨a, b⟩ := ab
    obtain ⟨rfl, rfl⟩ := splitAtByte_eq_some.1 hc
    rw [byteLen_append] at h; omega

theorem nameEnd_same {i : Image} {n : Nat} (hs : ∀ x, i.start = some x → x.intoInner < 9223372036854775808)
    (h : i.nameEnd = some n) : Release.nameEnd i = n := by
  unfold Image.nameEnd at h
  unfold Release.nameEnd
  cases hi : i.start with
  | none => simpa [hi] using h
  | some x =>
    have := hs x hi
    simp only [hi] at h ⊢
    split at h
    · cases h; simp only [Release.sub64]; omega
    · cases h

theorem nameEnd_past {i : Image} (hlen : byteLen i.inner < 9223372036854775808) (h : i.nameEnd = none) :
    byteLen i.inner < Release.nameEnd i := by
  unfold Image.nameEnd at h
  unfold Release.nameEnd
  cases hi : i.start with
  | none => simp [hi] at h
  | some x =>
    simp only [hi] at h ⊢
    split at h
    · cases h
    · simp only [Release.sub64]; omega

/-- C95: reading and editing images whose text is shorter than 2^63 bytes: what does not panic is the same.  Of the
getters and setters of the name, the panics are the same too. -/
theorem C95_same_image (i : Image) (registry : Option Image.Name) (n : Image.Name) (t : Option Image.TagOrDigest)
    (hs : ∀ x, i.start = some x → x.intoInner < 9223372036854775808)
    (hr : ∀ e, i.registryEnd = some e → e < 9223372036854775808)
    (hlen : byteLen i.inner < 9223372036854775808)
    (hreg : ∀ x, registry = some x → byteLen x.inner < 9223372036854775808)
    (hn : byteLen n.inner < 9223372036854775808) :
    (∀ i', i.setRegistry registry = some i' → Release.setRegistry i registry = some i') ∧
    Release.name i = i.name ∧ Release.setName i n = i.setName n ∧
    (∀ i', i.setTagOrDigest t = some i' → Release.setTagOrDigest i t = some i') := by
  refine ⟨fun i' h => ?_, ?_, ?_, fun i' h => ?_⟩
  · unfold Image.setRegistry at h
    unfold Release.setRegistry
    cases registry with
    | none =>
      cases he : i.registryEnd with
      | none => simpa [he] using h
      | some e =>
        have := hr e he
        have hadd : Release.add64 e 1 = e + 1 := by simp only [Release.add64]; omega
        simp only [he, Option.bind_eq_bind, Option.bind_eq_some_iff, Option.pure_def, Option.some.injEq] at h
        obtain ⟨inner, h1, st, h2, rfl⟩ := h
        simp only [hadd, h1, updateStart_same hs (by decide) h2]
        rfl
    | some x =>
      have hx := hreg x rfl
      cases he : i.registryEnd with
      | none =>
        have hadd : Release.add64 (byteLen x.inner) 1 = byteLen x.inner + 1 := by simp only [Release.add64]; omega
        simp only [he, Option.bind_eq_bind, Option.bind_eq_some_iff, Option.pure_def, Option.some.injEq] at h
        obtain ⟨st, h2, rfl⟩ := h
        simp only [hadd, updateStart_same hs (by omega) h2]
      | some e =>
        simp only [he, Option.bind_eq_bind, Option.bind_eq_some_iff, Option.pure_def, Option.some.injEq] at h
        obtain ⟨inner, h1, st, h2, rfl⟩ := h
        simp only [h1, updateStart_same hs (by omega) h2]
        rfl
  · unfold Release.name Image.name
    cases he : i.nameEnd with
    | none => simp only [sliceTo, splitAtByte_past (nameEnd_past hlen he)]; rfl
    | some e => rw [nameEnd_same hs he]; rfl
  · unfold Release.setName Image.setName
    cases he : i.nameEnd with
    | none => simp only [replaceTo, sliceFrom, splitAtByte_past (nameEnd_past hlen he)]; rfl
    | some e =>
      rw [nameEnd_same hs he]
      have hup : ∃ st, Image.updateStart e (byteLen n.inner) i.start = some st := by
        unfold Image.nameEnd at he
        cases hi : i.start with
        | none => exact ⟨none, rfl⟩
        | some x =>
          simp only [hi] at he
          split at he
          · cases he
            unfold Image.updateStart
            simp only
            split
            · exact ⟨_, rfl⟩
            · split
              · exact ⟨_, rfl⟩
              · rw [if_pos (by omega)]; exact ⟨_, rfl⟩
          · cases he
      obtain ⟨st, hst⟩ := hup
      rw [updateStart_same hs (by omega) hst]
      simp only [Option.bind_eq_bind, Option.bind_some, hst]
  · unfold Image.setTagOrDigest at h
    unfold Release.setTagOrDigest
    split at h
    · rename_i h1; simpa [h1] using h
    · rename_i h1; simpa [h1] using h
    · rename_i t' hn1 hn2
      have key : (do
          let inner ← truncate i.inner (Release.nameEnd i)
          pure ⟨t'.pushToString inner, i.registryEnd, some (t'.asStart (byteLen inner))⟩ : Option Image) = some i' := by
        unfold Image.putTagOrDigest at h
        cases he : i.nameEnd with
        | none => simp [he] at h
        | some e =>
          rw [nameEnd_same hs he]
          simpa [he] using h
      split
      · rename_i h1 h2; cases h1; exact (hn1 _ _ h2 rfl).elim
      · rename_i h1 h2; cases h1; exact (hn2 _ _ h2 rfl).elim
      · rename_i h1 _ _; cases h1; exact key
      · rename_i h1 _; cases h1
      · rename_i h1 _; cases h1
    · rename_i st hst
      simp only [hst]
      have := hs st hst
      split at h
      · have : Release.sub64 st.intoInner 1 = st.intoInner - 1 := by simp only [Release.sub64]; omega
        rw [this]; exact h
      · cases h
    · rename_i hst
      simpa [hst] using h

example : Release.name ⟨"a.b/c:t".toList, some 3, some (.tag 6)⟩ = some "a.b/c".toList :=
  (C95_same_image ⟨"a.b/c:t".toList, some 3, some (.tag 6)⟩ none ⟨"x".toList, none⟩ none
    (by rintro x h; cases h; decide) (by rintro x h; cases h; decide) (by decide) (by simp) (by decide)).2.1.trans rfl

/-- C95: of an image whose name was removed (`set_registry(None)` when there is only a registry, C34), the tag cannot be
removed or replaced by a digest: a checked build panics, and otherwise the tag becomes the name. -/
theorem C95_nameless_image (i : Image) (h : i.start = some (.tag 0)) (hlen : byteLen i.inner < 9223372036854775808)
    (d : Str) :
    i.setTagOrDigest none = none ∧ i.setTagOrDigest (some (.digest d)) = none ∧
    Release.setTagOrDigest i none = some ⟨i.inner, i.registryEnd, none⟩ ∧
    Release.setTagOrDigest i (some (.digest d)) =
      some ⟨i.inner ++ "@".toList ++ d, i.registryEnd, some (.digest (byteLen i.inner + 1))⟩ := by
  have hend : Release.nameEnd i = Release.sub64 0 1 := by simp only [Release.nameEnd, h, Image.Start.intoInner]
  have ht : truncate i.inner (Release.sub64 0 1) = some i.inner := by
    unfold truncate; rw [if_neg (by simp only [Release.sub64]; omega)]
  obtain ⟨inner, registryEnd, start⟩ := i
  simp only at h
  subst h
  refine ⟨rfl, rfl, ?_, ?_⟩
  · show (truncate inner (Release.sub64 0 1)).map _ = _
    rw [ht]; rfl
  · show (truncate inner (Release.nameEnd _)).bind _ = _
    rw [hend, ht]
    simp [Image.TagOrDigest.pushToString, Image.TagOrDigest.separator, Image.TagOrDigest.text, Image.TagOrDigest.asStart]

example : (⟨"t".toList, none, some (.tag 0)⟩ : Image).setTagOrDigest none = none :=
  (C95_nameless_image ⟨"t".toList, none, some (.tag 0)⟩ rfl (by decide) []).1

/-! ### What a build without overflow checks does -/

/-- C95: the size of a range made by `Range::new` is the number of its ports, except that it is 0 for the range of all
65536 ports. -/
theorem C95_size (r : Range) (h : RangeOk r) :
    (r ≠ fullRange → Release.size r = portCount r) ∧ (r = fullRange → Release.size r = 0) := by
  obtain ⟨s, e⟩ := r
  obtain ⟨h1, h2⟩ := h
  simp only at h1 h2
  cases e with
  | none => simp [Release.size, portCount, lastPort, fullRange]
  | some e =>
    have h2 := h2 e rfl
    simp only [fullRange, ne_eq, Range.mk.injEq, Option.some.injEq, Release.size, portCount, lastPort,
      Release.add16, Release.sub16, Option.getD_some]
    omega

example : Release.size fullRange = 0 ∧ Release.size ⟨80, some 81⟩ = 2 := by decide

theorem size_inj {r r' : Range} (h : PortNumbers r) (h' : PortNumbers r') :
    Release.size r = Release.size r' ↔ SameSizeMod r r' := by
  have key : ∀ r : Range, PortNumbers r → (Release.size r : Int) = ((lastPort r : Int) - r.start + 1) % 65536 := by
    rintro ⟨s, e⟩ ⟨h1, h2⟩
    simp only at h1 h2
    cases e with
    | none => simp [Release.size, lastPort]
    | some e =>
      have h2 := h2 e rfl
      simp only [Release.size, lastPort, Release.add16, Release.sub16, Option.getD_some]
      omega
  have k1 := key r h
  have k2 := key r' h'
  unfold SameSizeMod
  omega

theorem rangeOk_numbers {r : Range} (h : RangeOk r) : PortNumbers r := ⟨h.1, fun e he => (h.2 e he).2⟩

theorem sameSizeMod_ok {r r' : Range} (h : RangeOk r) (h' : RangeOk r') :
    SameSizeMod r r' ↔ portCount r = portCount r' := by
  have key : ∀ r : Range, RangeOk r → r.start ≤ lastPort r ∧ lastPort r ≤ 65535 := by
    rintro ⟨s, e⟩ ⟨h1, h2⟩
    cases e with
    | none => exact ⟨Nat.le_refl _, h1⟩
    | some e => have := h2 e rfl; simp only [lastPort, Option.getD_some]; simp only at this; omega
  have k1 := key r h
  have k2 := key r' h'
  unfold SameSizeMod portCount
  omega

/-- C95: of ranges made by `Range::new`, a pair is made exactly if they have the same number of ports, also if that is
65536.  Otherwise the error tells the numbers, modulo 65536. -/
theorem C95_new (h c : Range) (hh : RangeOk h) (hc : RangeOk c) :
    Release.new (some h) c =
      if portCount h = portCount c then .ok ⟨some h, c⟩
      else .error ⟨portCount h % 65536, portCount c % 65536⟩ := by
  have hs : ∀ r, RangeOk r → Release.size r = portCount r % 65536 := fun r hr => by
    by_cases he : r = fullRange
    · rw [(C95_size r hr).2 he, he]; rfl
    · rw [(C95_size r hr).1 he]
      refine (Nat.mod_eq_of_lt ?_).symm
      obtain ⟨s, e⟩ := r
      cases e with
      | none => simp [portCount, lastPort]
      | some e =>
        have := hr.2 e rfl
        simp only [fullRange, Range.mk.injEq, Option.some.injEq] at he
        simp only [portCount, lastPort, Option.getD_some]
        simp only at this
        omega
  have hi : Release.size h = Release.size c ↔ portCount h = portCount c :=
    (size_inj (rangeOk_numbers hh) (rangeOk_numbers hc)).trans (sameSizeMod_ok hh hc)
  unfold Release.new Release.rangeSizeEq
  by_cases he : portCount h = portCount c
  · rw [if_pos he]; simp [hi.2 he]
  · have hn : Release.size h ≠ Release.size c := mt hi.1 he
    rw [if_neg he, ← hs h hh, ← hs c hc]; simp [hn]

example : Release.new (some fullRange) ⟨80, none⟩ = .error ⟨0, 1⟩ :=
  C95_new _ _ ⟨by decide, by rintro e h; cases h; decide⟩ ⟨by decide, by simp⟩

/-- The value after an operation, in a build without overflow checks. -/
def applyRelease (r : ShortRanges) : RangesOp → ShortRanges
  | .replaceHost x => (Release.replaceHost r x).1
  | .takeHost => r.takeHost.1
  | .replaceContainer x => (Release.replaceContainer r x).1

/-- The ranges an operation is given are made by `Range::new`. -/
def OpOk : RangesOp → Prop
  | .replaceHost x => RangeOk x
  | .takeHost => True
  | .replaceContainer x => RangeOk x

/-- C95: after any sequence of operations with ranges made by `Range::new`, host and container have the same number of
ports. -/
theorem C95_balanced (r : ShortRanges) (h : Balanced r) (hc : RangeOk r.container)
    (hh : ∀ x, r.host = some x → RangeOk x) (ops : List RangesOp) (hops : ∀ op ∈ ops, OpOk op) :
    Balanced (ops.foldl applyRelease r) := by
  induction ops generalizing r with
  | nil => exact h
  | cons op ops ih =>
    have hop := hops op (by simp)
    have hrest : ∀ op ∈ ops, OpOk op := fun op ho => hops op (by simp [ho])
    have hsz : ∀ x y, RangeOk x → RangeOk y → Release.size x = Release.size y → portCount x = portCount y :=
      fun x y hx hy e => (sameSizeMod_ok hx hy).1 ((size_inj (rangeOk_numbers hx) (rangeOk_numbers hy)).1 e)
    cases op with
    | replaceHost x =>
      simp only [List.foldl_cons, applyRelease, Release.replaceHost, Release.rangeSizeEq]
      by_cases he : Release.size x = Release.size r.container
      · simp only [he, ne_eq, not_true_eq_false, if_false]
        refine ih _ ?_ hc ?_ hrest
        · rintro _ ⟨⟩; exact hsz _ _ hop hc he
        · rintro _ ⟨⟩; exact hop
      · simp only [he, ne_eq, not_false_eq_true, if_true]
        exact ih _ h hc hh hrest
    | takeHost =>
      exact ih _ (by rintro x hx; cases hx) hc (by rintro x hx; cases hx) hrest
    | replaceContainer x =>
      obtain ⟨host, container⟩ := r
      simp only [List.foldl_cons, applyRelease, Release.replaceContainer, Release.rangeSizeEq]
      cases host with
      | none => exact ih _ (by rintro x hx; cases hx) hop (by rintro x hx; cases hx) hrest
      | some y =>
        by_cases he : Release.size y = Release.size x
        · simp only [he, ne_eq, not_true_eq_false, if_false]
          refine ih _ ?_ hop hh hrest
          rintro _ ⟨⟩; exact hsz _ _ (hh y rfl) hop he
        · simp only [he, ne_eq, not_false_eq_true, if_true]
          exact ih _ h hc hh hrest

example : Balanced (([.replaceHost fullRange, .replaceHost ⟨80, none⟩, .takeHost] : List RangesOp).foldl applyRelease ⟨none, fullRange⟩) :=
  C95_balanced _ (by rintro h hh; cases hh) ⟨by decide, by rintro e h; cases h; decide⟩ (by simp) _ (by
    have hf : RangeOk fullRange := ⟨by decide, by rintro e h; cases h; decide⟩
    have h8 : RangeOk ⟨80, none⟩ := ⟨by decide, by simp⟩
    rintro op h
    simp only [List.mem_cons, List.not_mem_nil, or_false] at h
    rcases h with rfl | rfl | rfl
    · exact hf
    · exact h8
    · trivial)

/-- C95: which texts are accepted as a pair of ranges, and as which. -/
theorem C95_ranges_accepts (s : Str) (r : ShortRanges) : Release.parseRanges s = .ok r ↔ ReleaseRangesText s r := by
  have hcolon : ∀ {t x}, RangeText t x → ':' ∉ t := fun h => not_mem_rangeText h (by decide) (by decide) (by decide)
  have hnum : ∀ {t x}, RangeText t x → PortNumbers x := fun h => portNumbers_of_fromStr ((C13_range_accepts _ _).2 h)
  constructor
  · intro h
    unfold Release.parseRanges at h
    split at h
    · rename_i a b hs
      obtain ⟨rfl, hn⟩ := splitOnce_eq_some.1 hs
      by_cases ha : a = []
      · subst ha
        simp only [List.isEmpty_nil, if_true] at h
        split at h
        · cases h
        · rename_i c hc
          simp only [Release.new, Release.rangeSizeEq, Except.ok.injEq] at h
          subst h
          exact .noHost ((C13_range_accepts _ _).1 hc)
      · simp only [List.isEmpty_iff, ha, if_false] at h
        cases hr : Range.fromStr a with
        | error e => rw [hr] at h; cases h
        | ok x =>
          rw [hr] at h
          simp only at h
          split at h
          · cases h
          · rename_i c hc
            rw [C13_range_accepts] at hr hc
            simp only [Release.new, Release.rangeSizeEq] at h
            by_cases he : Release.size x = Release.size c
            · simp only [he, ne_eq, not_true_eq_false, if_false, Except.ok.injEq] at h
              subst h
              have := ReleaseRangesText.both hr hc ((size_inj (hnum hr) (hnum hc)).1 he)
              simpa using this
            · simp [he] at h
    · split at h
      · rename_i c hc
        cases h
        exact .container ((C13_range_accepts _ _).1 hc)
      · cases h
  · intro h
    cases h with
    | container h =>
      unfold Release.parseRanges
      rw [splitOnce_eq_none.2 (hcolon h)]
      simp only [(C13_range_accepts _ _).2 h]; rfl
    | @noHost t c h =>
      unfold Release.parseRanges
      rw [splitOnce_eq_some (a := []) (b := t) |>.2 ⟨by simp, by simp⟩]
      simp only [(C13_range_accepts _ _).2 h]; rfl
    | @both t u x c h1 h2 h3 =>
      unfold Release.parseRanges
      rw [splitOnce_eq_some (a := t) (b := u) |>.2 ⟨by simp, hcolon h1⟩]
      simp [rangeText_ne_nil h1, (C13_range_accepts _ _).2 h1, (C13_range_accepts _ _).2 h2, Release.new,
        Release.rangeSizeEq, (size_inj (hnum h1) (hnum h2)).2 h3]

example : ReleaseRangesText "0-65535:0-65535".toList ⟨some fullRange, fullRange⟩ := (C95_ranges_accepts _ _).1 (by decide)

theorem releaseRangesText_chars {s : Str} {r : ShortRanges} (h : ReleaseRangesText s r) : '/' ∉ s ∧ s.count ':' ≤ 1 := by
  have h1 : ∀ {t x}, RangeText t x → '/' ∉ t := fun h => not_mem_rangeText h (by decide) (by decide) (by decide)
  have h2 : ∀ {t x}, RangeText t x → t.count ':' = 0 := fun h =>
    List.count_eq_zero.2 (not_mem_rangeText h (by decide) (by decide) (by decide))
  cases h with
  | container h => exact ⟨h1 h, by rw [h2 h]; decide⟩
  | noHost h => exact ⟨by simp [h1 h], by simp [h2 h]⟩
  | both h h' => exact ⟨by simp [h1 h, h1 h'], by simp [h2 h, h2 h']⟩

/-- C95: which texts are accepted as a short port, and as which. -/
theorem C95_port_accepts {Ip E : Type} (ipParse : Str → Except E Ip) (s : Str) (p : ShortPort Ip) :
    Release.parsePort ipParse s = .ok p ↔ ReleasePortText ipParse s p := by
  constructor
  · intro h
    unfold Release.parsePort at h
    obtain ⟨pt, hs, hn, hp⟩ := splitProtocol_iff (s := s) (t := (splitProtocol s).1) (p := (splitProtocol s).2) |>.1 rfl
    revert h hs hn hp
    generalize (splitProtocol s).1 = t
    generalize (splitProtocol s).2 = q
    intro h hs hn hp
    subst hs
    split at h
    · cases h
    · rename_i hostIp rest hsplit
      split at h
      · rename_i ranges hr
        cases h
        rw [C95_ranges_accepts] at hr
        unfold ShortPort.splitHostIp at hsplit
        split at hsplit
        · cases hsplit
          exact .ranges hr hp
        · rename_i a rest' hcolon
          split at hsplit
          · rename_i ip hip
            cases hsplit
            obtain ⟨x, y, rfl, rfl, -, -⟩ := rsplitSecondColon_eq_some.1 hcolon
            have := ReleasePortText.address (addressText_iff.1 hip) (fun hm => hn (by simp [hm])) hr (by simp) hp
            simpa using this
          · cases hsplit
      · cases h
  · intro h
    cases h with
    | @ranges t pt r q hr hp =>
      unfold Release.parsePort
      obtain ⟨h1, h2⟩ := releaseRangesText_chars hr
      rw [splitProtocol_iff.2 ⟨pt, rfl, h1, hp⟩]
      simp only [ShortPort.splitHostIp, rsplitSecondColon_eq_none.2 h2, (C95_ranges_accepts _ _).2 hr]
    | @address a t pt ip r q ha hslash hr hm hp =>
      unfold Release.parsePort
      obtain ⟨h1, h2⟩ := releaseRangesText_chars hr
      rw [splitProtocol_iff.2 ⟨pt, rfl, by simp [hslash, h1], hp⟩]
      have hs : rsplitSecondColon (a ++ ":".toList ++ t) = some (a, t) := by
        obtain ⟨x, y, rfl⟩ := List.append_of_mem hm
        rw [List.count_append, List.count_cons_self] at h2
        refine rsplitSecondColon_eq_some.2 ⟨x, y, by simp, rfl, ?_, ?_⟩
        · intro hx
          have := List.count_pos_iff.2 hx
          omega
        · intro hy
          have := List.count_pos_iff.2 hy
          omega
      simp only [ShortPort.splitHostIp, hs, addressText_iff.2 ha, (C95_ranges_accepts _ _).2 hr]

example : ReleasePortText (fun _ => (.error () : Except Unit Unit)) "90-80:80-70/udp".toList
    ⟨none, ⟨some ⟨90, some 80⟩, ⟨80, some 70⟩⟩, some .udp⟩ := (C95_port_accepts _ _ _).1 (by decide)

/-- C95: the pair of ranges read from a text need not have the same number of host and container ports. -/
theorem C95_parse_balanced_false : ¬ ∀ s r, Release.parseRanges s = .ok r → Balanced r := by
  intro h
  have := h "9-5:1-65533".toList ⟨some ⟨9, some 5⟩, ⟨1, some 65533⟩⟩ (by decide) ⟨9, some 5⟩ rfl
  exact absurd this (by decide)

/-- C95, the part that holds: the numbers agree exactly if both ranges have their ends in order or both do not. -/
theorem C95_parse_balanced_partial (s : Str) (h c : Range) (hs : Release.parseRanges s = .ok ⟨some h, c⟩) :
    Balanced ⟨some h, c⟩ ↔ (h.start ≤ lastPort h ↔ c.start ≤ lastPort c) := by
  have hnum : ∀ {t x}, RangeText t x → PortNumbers x := fun h => portNumbers_of_fromStr ((C13_range_accepts _ _).2 h)
  have key : ∀ r : Range, PortNumbers r → r.start ≤ 65535 ∧ lastPort r ≤ 65535 := by
    rintro ⟨s, e⟩ ⟨h1, h2⟩
    cases e with
    | none => exact ⟨h1, h1⟩
    | some e => exact ⟨h1, h2 e rfl⟩
  cases (C95_ranges_accepts _ _).1 hs with
  | both h1 h2 h3 =>
    have k1 := key h (hnum h1)
    have k2 := key c (hnum h2)
    unfold SameSizeMod at h3
    simp only [Balanced, Option.some.injEq, forall_eq', portCount]
    omega

example : Balanced ⟨some fullRange, fullRange⟩ :=
  (C95_parse_balanced_partial "0-65535:0-65535".toList _ _ (by decide)).2 (by decide)

/-- C95: if the host range read from a text has its end below its start, no host port is published: every container port
is paired with none.  If the container range has, there are no ports at all. -/
theorem C95_lost_ports (s : Str) (h c : Range) (_ : Release.parseRanges s = .ok ⟨some h, c⟩) :
    (lastPort h < h.start →
      (ShortRanges.mk (some h) c).toList = c.toList.map fun p => (none, p)) ∧
    (lastPort c < c.start → (ShortRanges.mk (some h) c).toList = []) := by
  have hempty : ∀ r : Range, lastPort r < r.start → r.toList = [] := fun r hr => by
    unfold lastPort at hr
    simp only [Range.toList, List.map_eq_nil_iff, List.range_eq_nil]
    omega
  have hit : ∀ l, ShortRanges.iterate (some []) l = l.map fun p => (none, p) := fun l => by
    induction l with
    | nil => rfl
    | cons x l ih => simp [ShortRanges.iterate, ih]
  refine ⟨fun hh => ?_, fun hc => ?_⟩
  · simp only [ShortRanges.toList, Option.map_some, hempty h hh, hit]
  · simp only [ShortRanges.toList, Option.map_some, hempty c hc, ShortRanges.iterate]

/-! ### Examples -/

example : Range.size fullRange = none ∧ Release.size fullRange = 0 := by decide
example : Release.new (some fullRange) fullRange = .ok ⟨some fullRange, fullRange⟩ := by decide
example : Release.new (some ⟨80, some 81⟩) ⟨90, none⟩ = .error ⟨2, 1⟩ := by decide
example : RangeOk fullRange ∧ RangeOk ⟨80, some 81⟩ :=
  ⟨⟨by decide, by rintro e he; cases he; decide⟩, ⟨by decide, by rintro e he; cases he; decide⟩⟩
example : ShortRanges.fromStr "8-9:80-81".toList ≠ .panic ∧
    Release.parseRanges "8-9:80-81".toList = .ok ⟨some ⟨8, some 9⟩, ⟨80, some 81⟩⟩ := by decide
example : ShortRanges.fromStr "90-80:80-70".toList = .panic ∧
    Release.parseRanges "90-80:80-70".toList = .ok ⟨some ⟨90, some 80⟩, ⟨80, some 70⟩⟩ := by decide
example : Release.add ⟨65535, none⟩ 1 = ⟨0, none⟩ ∧ Release.sub ⟨0, some 9⟩ 1 = ⟨65535, some 8⟩ := by decide
example : ([.replaceHost fullRange, .takeHost] : List RangesOp).foldl applyRelease ⟨none, fullRange⟩ = ⟨none, fullRange⟩ := by
  decide
example : Release.cpuSetDisplay [0, 1, 5, 18446744073709551615] = "0-1,5,18446744073709551615".toList := by decide

example : (Image.parse "a.b:t".toList).toOption.bind (fun i => i.setRegistry none) = some ⟨"t".toList, none, some (.tag 0)⟩ := by
  decide
example : Release.setTagOrDigest ⟨"t".toList, none, some (.tag 0)⟩ none = some ⟨"t".toList, none, none⟩ := by decide
example : Release.setName ⟨"a:t".toList, none, some (.tag 2)⟩ ⟨"bcd".toList, none⟩ =
    some ⟨"bcd:t".toList, none, some (.tag 4)⟩ := by decide

end Props
