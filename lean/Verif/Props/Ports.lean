import Verif.Proofs.Ports

/- C13 - C22: ports. -/

namespace Props
open Rust Compose Spec

/-! ### C13, C14: ranges -/

/-- C13: `Range::new` succeeds exactly when there is no end, the end is above the start, or they are equal (then
the range is a single port). -/
theorem C13_range_new (s : Nat) (e? : Option Nat) (r : Range) :
    Range.new s e? = .ok r ↔
      (e? = none ∧ r = ⟨s, none⟩) ∨ (e? = some s ∧ r = ⟨s, none⟩) ∨
      (∃ e, e? = some e ∧ s < e ∧ r = ⟨s, some e⟩) := by
  unfold Range.new
  cases e? with
  | none => simp [eq_comm]
  | some e =>
    simp only [reduceCtorEq, false_and, false_or, Option.some.injEq]
    split <;> rename_i h
    · have := Nat.compare_eq_lt.1 h
      constructor
      · intro h; cases h; exact Or.inr ⟨e, rfl, this, rfl⟩
      · rintro (⟨rfl, _⟩ | ⟨e', rfl, _, rfl⟩)
        · omega
        · rfl
    · have := Nat.compare_eq_eq.1 h
      subst this
      constructor
      · intro h; cases h; exact Or.inl ⟨rfl, rfl⟩
      · rintro (⟨_, rfl⟩ | ⟨e', rfl, h, _⟩)
        · rfl
        · omega
    · have := Nat.compare_eq_gt.1 h
      simp only [reduceCtorEq, false_iff]
      rintro (⟨rfl, _⟩ | ⟨e', rfl, h, _⟩) <;> omega

example : Range.new 8000 (some 8010) = .ok ⟨8000, some 8010⟩ ∧ Range.new 80 (some 80) = .ok ⟨80, none⟩ := by decide

/-- C13: the error of `Range::new` is for an end below the start, and carries both. -/
theorem C13_range_new_error (s : Nat) (e? : Option Nat) (err : RangeError) :
    Range.new s e? = .error err ↔ ∃ e, e? = some e ∧ e < s ∧ err = ⟨s, e⟩ := by
  unfold Range.new
  cases e? with
  | none => simp
  | some e =>
    simp only [Option.some.injEq]
    split <;> rename_i h
    · have := Nat.compare_eq_lt.1 h
      simp; intro _; omega
    · have := Nat.compare_eq_eq.1 h
      simp; intro _; omega
    · have := Nat.compare_eq_gt.1 h
      constructor
      · intro h; cases h; exact ⟨e, rfl, this, rfl⟩
      · rintro ⟨e', rfl, _, rfl⟩; rfl

example : ∃ e, some 80 = some e ∧ e < 90 ∧ (⟨90, 80⟩ : RangeError) = ⟨90, e⟩ :=
  (C13_range_new_error 90 (some 80) ⟨90, 80⟩).1 (by decide)

/-- C13: every range made by `Range::new` from `u16` numbers is well formed, and conversely. -/
theorem C13_range_new_ok (r : Range) :
    RangeOk r ↔ ∃ s e?, s ≤ 65535 ∧ (∀ e, e? = some e → e ≤ 65535) ∧ Range.new s e? = .ok r := by
  constructor
  · rintro ⟨h1, h2⟩
    refine ⟨r.start, r.end, h1, fun e he => (h2 e he).2, (C13_range_new _ _ _).2 ?_⟩
    cases he : r.end with
    | none => left; exact ⟨rfl, by cases r; simp only at he; rw [he]⟩
    | some e => right; right; exact ⟨e, rfl, (h2 e he).1, by cases r; simp only at he; rw [he]⟩
  · rintro ⟨s, e?, h1, h2, h3⟩
    rcases (C13_range_new _ _ _).1 h3 with ⟨_, rfl⟩ | ⟨_, rfl⟩ | ⟨e, rfl, h4, rfl⟩
    · exact ⟨h1, by simp⟩
    · exact ⟨h1, by simp⟩
    · exact ⟨h1, by rintro e' h; cases h; exact ⟨h4, h2 e rfl⟩⟩

example : RangeOk ⟨0, some 65535⟩ := (C13_range_new_ok _).2 ⟨0, some 65535, by decide, by simp, by decide⟩

/-- C13: a range contains exactly the ports from its start to its end, each once, in increasing order. -/
theorem C13_range_ports (r : Range) :
    (∀ p, p ∈ r.toList ↔ r.start ≤ p ∧ p ≤ lastPort r) ∧ r.toList.Pairwise (· < ·) ∧
      r.toList.length = portCount r := by
  refine ⟨?_, ?_, length_toList r⟩
  · intro p
    simp only [Range.toList, List.mem_map, List.mem_range, lastPort]
    constructor
    · rintro ⟨i, hi, rfl⟩; omega
    · rintro ⟨h1, h2⟩; exact ⟨p - r.start, by omega, by omega⟩
  · unfold Range.toList
    rw [List.pairwise_map]
    exact List.Pairwise.imp (by intros; omega) (List.pairwise_lt_range)

example : Range.toList ⟨80, some 83⟩ = [80, 81, 82, 83] ∧ portCount ⟨80, some 83⟩ = 4 := by decide

/-- C13: a well-formed range reads back from its text. -/
theorem C13_range_round_trip (r : Range) (h : PortNumbers r) : Range.fromStr r.toStr = .ok r :=
  portNumbers_round_trip h

example : Range.fromStr (Range.toStr ⟨90, some 80⟩) = .ok ⟨90, some 80⟩ :=
  C13_range_round_trip _ ⟨by decide, by rintro e h; cases h; decide⟩

/-- C13: a string is accepted exactly when it is one `u16`, or two separated by `-`. -/
theorem C13_range_accepts (s : Str) (r : Range) : Range.fromStr s = .ok r ↔ RangeText s r := by
  have : ∀ a b : Str, a ++ '-' :: b = a ++ "-".toList ++ b := by intro a b; simp
  rw [range_fromStr_iff]
  constructor
  · rintro (⟨n, h, rfl⟩ | ⟨a, b, m, n, rfl, h1, h2, rfl⟩)
    · exact .single h
    · rw [this]; exact .range h1 h2
  · rintro (h | ⟨h1, h2⟩)
    · exact .inl ⟨_, h, rfl⟩
    · exact .inr ⟨_, _, _, _, (this _ _).symm, h1, h2, rfl⟩

theorem not_mem_rangeText {s : Str} {r : Range} (h : RangeText s r) {c : Char} (hc : isDigit c = false) (hp : c ≠ '+')
    (hm : c ≠ '-') : c ∉ s := by
  cases h with
  | single h => exact no_char_of_uint h hc hp
  | range h1 h2 => simp [no_char_of_uint h1 hc hp, no_char_of_uint h2 hc hp, hm]

theorem rangeText_ne_nil {s : Str} {r : Range} (h : RangeText s r) : s ≠ [] := by
  cases h with
  | single h => obtain ⟨ds, rfl | rfl, h, -⟩ := h; exacts [h.1, by simp]
  | range h1 h2 => simp

/-- C13: the size is the number of ports. Missing: the range `0-65535`, see `C13_range_size_false`. -/
theorem C13_range_size_partial (r : Range) (h : RangeOk r) (hf : r ≠ fullRange) :
    r.size = some (portCount r) := size_eq (size_ne_none h hf)

example : Range.size ⟨8000, some 8010⟩ = some 11 :=
  C13_range_size_partial _ ⟨by decide, by rintro e h; cases h; decide⟩ (by decide)

/-- C13: for the well-formed range `0-65535`, `size` overflows and panics. -/
theorem C13_range_size_false : ¬ ∀ r, RangeOk r → r.size = some (portCount r) := by
  intro h
  have := h fullRange ⟨by decide, by rintro e he; cases he; decide⟩
  exact absurd this (by decide)

/-- C14 is false for the code: parsing accepts a range whose end is below its start. -/
theorem C14_range_parse_validates_false :
    ¬ ∀ (s : Str) (r : Range), Range.fromStr s = .ok r → RangeOk r := by
  intro h
  have := h "90-80".toList ⟨90, some 80⟩ (by decide)
  exact absurd (this.2 80 rfl).1 (by decide)

/-- C14: such a range makes the parsing of a pair of ranges panic. -/
theorem C14_short_ranges_parse_panics : ShortRanges.fromStr "90-80:80".toList = .panic := by decide

/-- C14, the part that holds: the numbers are `u16`; a single port is well formed; two numbers give a
well-formed range exactly when the first is below the second. Missing: rejection of the others. -/
theorem C14_range_parse_validates_partial (s : Str) (r : Range) (h : Range.fromStr s = .ok r) :
    r.start ≤ 65535 ∧ (∀ e, r.end = some e → e ≤ 65535) ∧
    ('-' ∉ s → RangeOk r) ∧ (∀ e, r.end = some e → (RangeOk r ↔ r.start < e)) := by
  rcases (C13_range_accepts s r).1 h with @⟨_, n, hn⟩ | @⟨a, b, m, n, hm, hn⟩
  · have h1 : n ≤ 65535 := by obtain ⟨_, _, _, _, h⟩ := hn; exact h
    exact ⟨h1, by simp, fun _ => ⟨h1, by simp⟩, by simp⟩
  · have h1 : m ≤ 65535 := by obtain ⟨_, _, _, _, h⟩ := hm; exact h
    have h2 : n ≤ 65535 := by obtain ⟨_, _, _, _, h⟩ := hn; exact h
    refine ⟨h1, by rintro e he; cases he; exact h2, fun hd => absurd (by simp) hd, ?_⟩
    rintro e he
    cases he
    constructor
    · intro h; exact (h.2 n rfl).1
    · intro h; exact ⟨h1, by rintro e he; cases he; exact ⟨h, h2⟩⟩

example : RangeOk ⟨8000, some 8010⟩ ↔ 8000 < 8010 :=
  (C14_range_parse_validates_partial "8000-8010".toList ⟨8000, some 8010⟩ (by decide)).2.2.2 8010 rfl

theorem size_eq_none {r : Range} (hs : r.start ≤ 65535) (he : ∀ e, r.end = some e → e ≤ 65535) :
    r.size = none ↔ Unsizable r := by
  obtain ⟨s, e⟩ := r
  cases e with
  | none => simp [Range.size, Unsizable, lastPort, fullRange]
  | some e =>
    have h1 : e ≤ 65535 := he e rfl
    simp only [Range.size, Unsizable, lastPort, fullRange, Option.getD_some, Range.mk.injEq, Option.some.injEq, u16Max]
    split
    · simp_all
    · by_cases hc : e - s + 1 > 65535
      · simp only [hc, if_true, true_iff]; omega
      · simp only [hc, if_false, reduceCtorEq, false_iff]; omega

/-- C14: parsing a pair of ranges panics exactly for a text `host:container` in which both ranges can be read and one of
them has its end below its start or is the range of all ports. -/
theorem C14_short_ranges_panics_iff (s : Str) : ShortRanges.fromStr s = .panic ↔ UnsizableRanges s := by
  have hb : ∀ {t r}, Range.fromStr t = .ok r → (r.size = none ↔ Unsizable r) := fun {t r} h =>
    size_eq_none (C14_range_parse_validates_partial t r h).1 (C14_range_parse_validates_partial t r h).2.1
  have hnil : ∀ r, Range.fromStr [] ≠ .ok r := fun r h => by
    have : Range.fromStr [] = .error (.int .empty []) := by decide
    rw [this] at h; cases h
  constructor
  · intro h
    unfold ShortRanges.fromStr at h
    split at h
    · rename_i hh c hs
      obtain ⟨rfl, hn⟩ := splitOnce_eq_some.1 hs
      simp only at h
      split at h
      · cases h
      · rename_i host hhost
        split at h
        · cases h
        · rename_i container hc
          cases host with
          | none => simp [ShortRanges.new, rangeSizeEq] at h
          | some host =>
            have hr : Range.fromStr hh = .ok host := by
              split at hhost
              · cases hhost
              · split at hhost
                · cases hhost; assumption
                · cases hhost
            refine ⟨hh, c, host, container, by simp, (C13_range_accepts _ _).1 hr, (C13_range_accepts _ _).1 hc, ?_⟩
            by_contra hcon
            rw [not_or, ← hb hr, ← hb hc] at hcon
            obtain ⟨a, ha⟩ := Option.ne_none_iff_exists'.1 hcon.1
            obtain ⟨b, hb⟩ := Option.ne_none_iff_exists'.1 hcon.2
            simp only [ShortRanges.new, rangeSizeEq, ha, hb] at h
            by_cases hab : a = b <;> simp [hab] at h
    · split at h <;> cases h
  · rintro ⟨hh, c, host, container, rfl, hr, hc, hu⟩
    have hn : ':' ∉ hh := not_mem_rangeText hr (by decide) (by decide) (by decide)
    rw [← C13_range_accepts] at hr hc
    have hne : hh ≠ [] := fun e => hnil host (e ▸ hr)
    have hs : splitOnce ':' (hh ++ ":".toList ++ c) = some (hh, c) := splitOnce_eq_some.2 ⟨by simp, hn⟩
    unfold ShortRanges.fromStr
    rw [hs]
    simp only [List.isEmpty_iff, hne, if_false, hr, hc]
    rw [← hb hr, ← hb hc] at hu
    have : ShortRanges.new (some host) container = .panic := by
      cases h1 : host.size with
      | none => simp [ShortRanges.new, rangeSizeEq, h1]
      | some a =>
        cases h2 : container.size with
        | none => simp [ShortRanges.new, rangeSizeEq, h1, h2]
        | some b => simp [h1, h2] at hu
    rw [this]

example : UnsizableRanges "80:90-80".toList := (C14_short_ranges_panics_iff _).1 (by decide)

/-- C14: parsing a short port panics only if the text contains such a pair of ranges, before the protocol and after the
host IP. -/
theorem C14_short_port_panics {Ip E : Type} (ipParse : Str → Except E Ip) (s : Str)
    (h : ShortPort.fromStr ipParse s = .panic) :
    ∃ before ranges after, s = before ++ ranges ++ after ∧ UnsizableRanges ranges := by
  unfold ShortPort.fromStr at h
  have hp : ∃ after, s = (splitProtocol s).1 ++ after := by
    unfold splitProtocol
    split
    · rename_i a b hs
      exact ⟨_, (splitOnce_eq_some.1 hs).1⟩
    · exact ⟨[], by simp⟩
  obtain ⟨after, ha⟩ := hp
  split at h
  · cases h
  · rename_i ip rest hs
    have hr : ∃ before, (splitProtocol s).1 = before ++ rest := by
      unfold ShortPort.splitHostIp at hs
      split at hs
      · cases hs; exact ⟨[], rfl⟩
      · rename_i x y hxy
        unfold rsplitSecondColon at hxy
        split at hxy
        · cases hxy
        · rename_i a b hab
          split at hxy
          · cases hxy
          · rename_i c d hcd
            cases hxy
            split at hs
            · cases hs
              refine ⟨x ++ [':'], ?_⟩
              rw [(rsplitOnce_eq_some.1 hab).1, (rsplitOnce_eq_some.1 hcd).1]
              simp
            · cases hs
    obtain ⟨before, hb⟩ := hr
    refine ⟨before, rest, after, by rw [← hb]; exact ha, (C14_short_ranges_panics_iff rest).1 ?_⟩
    split at h
    · cases h
    · cases h
    · assumption

example : ∃ before ranges after, "90-80:80/udp".toList = before ++ ranges ++ after ∧ UnsizableRanges ranges :=
  C14_short_port_panics (fun _ => (.error () : Except Unit Unit)) _ (by decide)

/-- C13: adding to a range moves all of its ports up; it panics exactly if the last port would not fit. -/
theorem C13_range_add (r r' : Range) (n : Nat) (h : RangeOk r) :
    r.add n = some r' ↔
      lastPort r + n ≤ 65535 ∧ RangeOk r' ∧ r'.start = r.start + n ∧ portCount r' = portCount r := by
  obtain ⟨s, e⟩ := r
  obtain ⟨s', e'⟩ := r'
  obtain ⟨h1, h2⟩ := h
  cases e with
  | none =>
    cases e' with
    | none => simp [Range.add, lastPort, portCount, RangeOk, u16Max] at *; omega
    | some e' => simp [Range.add, lastPort, portCount, RangeOk, u16Max] at *; omega
  | some e =>
    obtain ⟨h2, h3⟩ := h2 e rfl
    cases e' with
    | none =>
      simp [Range.add, lastPort, portCount, RangeOk, u16Max] at *
      omega
    | some e' =>
      simp [Range.add, lastPort, portCount, RangeOk, u16Max] at *
      omega

example : Range.add ⟨65000, some 65534⟩ 1 = some ⟨65001, some 65535⟩ :=
  (C13_range_add _ _ _ ⟨by decide, by rintro e h; cases h; decide⟩).2
    ⟨by decide, ⟨by decide, by rintro e h; cases h; decide⟩, rfl, rfl⟩

/-- C13: subtracting from a range moves all of its ports down; it panics exactly if the first port would not fit. -/
theorem C13_range_sub (r r' : Range) (n : Nat) (h : RangeOk r) :
    r.sub n = some r' ↔ n ≤ r.start ∧ RangeOk r' ∧ r'.start + n = r.start ∧ portCount r' = portCount r := by
  obtain ⟨s, e⟩ := r
  obtain ⟨s', e'⟩ := r'
  obtain ⟨h1, h2⟩ := h
  cases e with
  | none =>
    cases e' with
    | none => simp [Range.sub, lastPort, portCount, RangeOk] at *; omega
    | some e' => simp [Range.sub, lastPort, portCount, RangeOk] at *; omega
  | some e =>
    obtain ⟨h2, h3⟩ := h2 e rfl
    cases e' with
    | none =>
      simp [Range.sub, lastPort, portCount, RangeOk] at *
      omega
    | some e' =>
      simp [Range.sub, lastPort, portCount, RangeOk] at *
      omega

example : Range.sub ⟨5, some 9⟩ 5 = some ⟨0, some 4⟩ :=
  (C13_range_sub _ _ _ ⟨by decide, by rintro e h; cases h; decide⟩).2
    ⟨by decide, ⟨by decide, by rintro e h; cases h; decide⟩, rfl, rfl⟩

/-- C13: of any range, also one whose ends are out of order (`Range::from_str` can make those): adding moves both
ends up; it panics exactly if one of them would not fit. -/
theorem C13_range_add_any (r r' : Range) (n : Nat) :
    r.add n = some r' ↔
      r.start + n ≤ 65535 ∧ (∀ e, r.end = some e → e + n ≤ 65535) ∧
        r'.start = r.start + n ∧ r'.end = r.end.map (· + n) := by
  obtain ⟨s, e⟩ := r
  obtain ⟨s', e'⟩ := r'
  cases e with
  | none => cases e' <;> simp [Range.add, u16Max] <;> omega
  | some e => cases e' <;> simp [Range.add, u16Max] <;> omega

example : Range.add ⟨9, some 5⟩ 5 = some ⟨14, some 10⟩ ∧ Range.add ⟨65535, some 5⟩ 1 = none := by decide

/-- C13: of any range, also one whose ends are out of order: subtracting moves both ends down; it panics exactly if
one of them would be below zero. -/
theorem C13_range_sub_any (r r' : Range) (n : Nat) :
    r.sub n = some r' ↔
      n ≤ r.start ∧ (∀ e, r.end = some e → n ≤ e) ∧ r.start = r'.start + n ∧ r.end = r'.end.map (· + n) := by
  obtain ⟨s, e⟩ := r
  obtain ⟨s', e'⟩ := r'
  cases e with
  | none => cases e' <;> simp [Range.sub] <;> omega
  | some e => cases e' <;> simp [Range.sub] <;> omega

example : Range.sub ⟨9, some 5⟩ 5 = some ⟨4, some 0⟩ ∧ Range.sub ⟨9, some 5⟩ 6 = none := by decide

/-! ### C15: operations on a pair of ranges -/

/-- The operations that change a `ShortRanges`. -/
inductive RangesOp
  | replaceHost (host : Range) | takeHost | replaceContainer (container : Range)

/-- The value after one operation, whether it succeeds, fails or panics. -/
def applyOp (r : ShortRanges) : RangesOp → ShortRanges
  | .replaceHost host => (r.replaceHost host).1
  | .takeHost => r.takeHost.1
  | .replaceContainer container => (r.replaceContainer container).1

/-- C15: after any sequence of operations, with any ranges, host and container have the same number of ports. -/
theorem C15_short_ranges_balanced (r : ShortRanges) (h : Balanced r) (ops : List RangesOp) :
    Balanced (ops.foldl applyOp r) := by
  induction ops generalizing r with
  | nil => exact h
  | cons op ops ih =>
    apply ih
    cases op with
    | replaceHost host =>
      simp only [applyOp, ShortRanges.replaceHost]
      cases hs : rangeSizeEq (some host) r.container with
      | ok u => rintro x hx; cases hx; exact rangeSizeEq_ok hs host rfl
      | err e => exact h
      | panic => exact h
    | takeHost => rintro x hx; cases hx
    | replaceContainer container =>
      simp only [applyOp, ShortRanges.replaceContainer]
      cases hs : rangeSizeEq r.host container with
      | ok u => rintro x hx; exact rangeSizeEq_ok hs x hx
      | err e => exact h
      | panic => exact h

example : Balanced (([.replaceHost ⟨9000, some 9001⟩, .replaceHost ⟨9000, some 9002⟩, .replaceContainer ⟨5, none⟩] :
    List RangesOp).foldl applyOp (ShortRanges.ofRange ⟨80, some 82⟩)) :=
  C15_short_ranges_balanced _ (by rintro h hh; cases hh) _

/-- C15: every way to make a `ShortRanges` gives balanced ranges: the constructor, the conversion from a range,
parsing, and the conversion of a long port. -/
theorem C15_short_ranges_made_balanced (r : ShortRanges) :
    ((∃ host container, ShortRanges.new host container = .ok r) → Balanced r) ∧
    (∀ container, r = ShortRanges.ofRange container → Balanced r) ∧
    ((∃ s, ShortRanges.fromStr s = .ok r) → Balanced r) ∧
    (∀ (Ip V : Type) (p : Port Ip V) (sp : ShortPort Ip), p.intoShort = .ok sp → r = sp.ranges → Balanced r) := by
  have hnew : ∀ host container, ShortRanges.new host container = .ok r → Balanced r := by
    intro host container h
    unfold ShortRanges.new at h
    cases hs : rangeSizeEq host container with
    | ok u => rw [hs] at h; cases h; exact rangeSizeEq_ok hs
    | err e => rw [hs] at h; cases h
    | panic => rw [hs] at h; cases h
  have hof : ∀ container, r = ShortRanges.ofRange container → Balanced r := by
    rintro container rfl x hx; cases hx
  refine ⟨fun ⟨host, container, h⟩ => hnew host container h, hof, ?_, ?_⟩
  · rintro ⟨s, h⟩
    unfold ShortRanges.fromStr at h
    split at h
    · simp only at h
      split at h
      · cases h
      · split at h
        · cases h
        · split at h
          · rename_i heq; cases h; exact hnew _ _ heq
          · cases h
          · cases h
    · split at h
      · cases h; exact hof _ rfl
      · cases h
  · rintro Ip V p sp h rfl x hx
    obtain ⟨⟨_, _, _, _, h5⟩, rfl⟩ := intoShort_ok.1 h
    have : x.end = none := h5 x hx
    simp [portCount, lastPort, this, Range.ofU16]

example : ShortRanges.new (some ⟨3000, some 3002⟩) ⟨80, some 82⟩ = .ok ⟨some ⟨3000, some 3002⟩, ⟨80, some 82⟩⟩ ∧
    ShortRanges.new (some ⟨3000, some 3002⟩) ⟨80, none⟩ = .err ⟨3, 1⟩ := by decide

/-- C15: an operation that is rejected, or panics, leaves the value unchanged. -/
theorem C15_rejected_unchanged (r : ShortRanges) (x : Range) :
    ((∀ v, (r.replaceHost x).2 ≠ .ok v) → (r.replaceHost x).1 = r) ∧
    ((∀ v, (r.replaceContainer x).2 ≠ .ok v) → (r.replaceContainer x).1 = r) := by
  constructor
  · intro h
    unfold ShortRanges.replaceHost at *
    split at h
    · exact absurd rfl (h r.host)
    · rename_i hs; simp
    · rename_i hs; simp
  · intro h
    unfold ShortRanges.replaceContainer at *
    split at h
    · exact absurd rfl (h r.container)
    · rename_i hs; simp
    · rename_i hs; simp

example : ShortRanges.replaceHost ⟨some ⟨9, none⟩, ⟨80, none⟩⟩ ⟨3000, some 3002⟩ = (⟨some ⟨9, none⟩, ⟨80, none⟩⟩, .err ⟨3, 1⟩) := by
  decide

/-- C15: `replace_host` replaces the host and returns the old one if the numbers of ports agree, and otherwise
reports both numbers. -/
theorem C15_replace_host (r : ShortRanges) (x : Range) (hx : RangeOk x ∧ x ≠ fullRange)
    (hc : RangeOk r.container ∧ r.container ≠ fullRange) :
    r.replaceHost x =
      if portCount x = portCount r.container then ({ r with host := some x }, .ok r.host)
      else (r, .err ⟨portCount x, portCount r.container⟩) := by
  unfold ShortRanges.replaceHost
  rw [rangeSizeEq_sized (size_ne_none hx.1 hx.2) (size_ne_none hc.1 hc.2)]
  by_cases h : portCount x = portCount r.container <;> simp [h]

example : ShortRanges.replaceHost ⟨some ⟨9, none⟩, ⟨80, none⟩⟩ ⟨10, none⟩ = (⟨some ⟨10, none⟩, ⟨80, none⟩⟩, .ok (some ⟨9, none⟩)) :=
  C15_replace_host _ _ ⟨⟨by decide, by simp⟩, by decide⟩ ⟨⟨by decide, by simp⟩, by decide⟩

/-- C15: `replace_container` replaces the container and returns the old one if there is no host range or the
numbers of ports agree, and otherwise reports both numbers. -/
theorem C15_replace_container (r : ShortRanges) (x : Range) (hx : RangeOk x ∧ x ≠ fullRange)
    (hh : ∀ h, r.host = some h → RangeOk h ∧ h ≠ fullRange) :
    r.replaceContainer x =
      match r.host with
      | none => ({ r with container := x }, .ok r.container)
      | some h =>
        if portCount h = portCount x then ({ r with container := x }, .ok r.container)
        else (r, .err ⟨portCount h, portCount x⟩) := by
  unfold ShortRanges.replaceContainer
  cases hr : r.host with
  | none => rfl
  | some y =>
    obtain ⟨h1, h2⟩ := hh y hr
    rw [rangeSizeEq_sized (size_ne_none h1 h2) (size_ne_none hx.1 hx.2)]
    by_cases h : portCount y = portCount x <;> simp [h]

example : ShortRanges.replaceContainer ⟨some ⟨9, none⟩, ⟨80, none⟩⟩ ⟨10, none⟩ = (⟨some ⟨9, none⟩, ⟨10, none⟩⟩, .ok ⟨80, none⟩) :=
  C15_replace_container _ _ ⟨⟨by decide, by simp⟩, by decide⟩
    (by rintro h hh; cases hh; exact ⟨⟨by decide, by simp⟩, by decide⟩)

/-- C15: `take_host` removes the host range, returns it, and keeps the container range. -/
theorem C15_take_host (r : ShortRanges) :
    r.takeHost.1.host = none ∧ r.takeHost.1.container = r.container ∧ r.takeHost.2 = r.host := ⟨rfl, rfl, rfl⟩

example : ShortRanges.takeHost ⟨some ⟨9, none⟩, ⟨80, none⟩⟩ = (⟨none, ⟨80, none⟩⟩, some ⟨9, none⟩) := by decide

/-! ### C16 -/

/-- C16: a well-formed pair of ranges reads back from its text. -/
theorem C16_short_ranges_round_trip (r : ShortRanges) (h : ShortRangesOk r) :
    ShortRanges.fromStr r.toStr = .ok r := shortRanges_toStr_round_trip h

example : ShortRanges.fromStr (ShortRanges.toStr ⟨some ⟨3000, some 3002⟩, ⟨80, some 82⟩⟩) =
    .ok ⟨some ⟨3000, some 3002⟩, ⟨80, some 82⟩⟩ := by decide

/-- C16: the iterator yields, in order, the pairs `(host start + i, container start + i)` for each port of the
container range. -/
theorem C16_short_ranges_pairs (r : ShortRanges) (h : Balanced r) :
    r.toList = (List.range (portCount r.container)).map fun i =>
      (r.host.map (fun x => x.start + i), r.container.start + i) := shortRanges_toList h

example : ShortRanges.toList ⟨some ⟨3000, some 3002⟩, ⟨80, some 82⟩⟩ = [(some 3000, 80), (some 3001, 81), (some 3002, 82)] :=
  C16_short_ranges_pairs _ (by rintro h hh; cases hh; decide)

/-- C16: pairs of ranges written in a document read back. -/
theorem C16_short_ranges_serde_round_trip (r : ShortRanges) (h : ShortRangesOk r) :
    deserializeFromStrOrU16 (fun n => .ofRange (.ofU16 n)) ShortRanges.fromStr r.serialize = .ok r := by
  have hrt := C16_short_ranges_round_trip r h
  cases r with
  | mk host container =>
    cases host with
    | some x => simp only [ShortRanges.serialize, Option.isSome_some, if_true, deserializeFromStrOrU16, hrt]
    | none =>
      simp only [ShortRanges.serialize, Option.isSome_none, Bool.false_eq_true, if_false, Range.serialize]
      cases container with
      | mk s e =>
        cases e with
        | some e =>
          have : ShortRanges.toStr ⟨none, ⟨s, some e⟩⟩ = Range.toStr ⟨s, some e⟩ := by simp [ShortRanges.toStr]
          rw [this] at hrt
          simp only [Option.isSome_some, if_true, deserializeFromStrOrU16, hrt]
        | none =>
          have h1 : s ≤ u16Max := h.1.1
          simp only [Option.isSome_none, Bool.false_eq_true, if_false, deserializeFromStrOrU16, if_pos h1]
          rfl

example : ShortRanges.serialize ⟨none, ⟨80, none⟩⟩ = .u64 80 ∧
    ShortRanges.serialize ⟨some ⟨3000, none⟩, ⟨80, none⟩⟩ = .str "3000:80".toList := ⟨rfl, rfl⟩

/-! ### C17: short ports -/

/-- C17: a well-formed short port reads back from its text, for any notion of IP address whose text reads back
and has no `/` and no `[`; colons are allowed. -/
theorem C17_short_port_round_trip {Ip E : Type} (ipParse : Str → Except E Ip) (ipShow : Ip → Str)
    (hip : IpText ipParse ipShow) (p : ShortPort Ip) (h : ShortPortOk p) :
    ShortPort.fromStr ipParse (p.toStr ipShow) = .ok p := by
  obtain ⟨ip, ranges, protocol⟩ := p
  obtain ⟨h1, h2⟩ := h
  simp only at h1 h2
  have hrt := shortRanges_toStr_round_trip h1
  have hslash : '/' ∉ ranges.toStr := by
    have : ∀ x : Range, '/' ∉ x.toStr := fun x => not_mem_range_toStr rfl (by decide)
    cases hh : ranges.host <;> simp [ShortRanges.toStr, this, hh]
  -- the part before the protocol
  generalize hbody : ShortPort.ipPart ipShow ip ranges ++ ranges.toStr = body
  have hslash' : '/' ∉ body := by
    rw [← hbody]
    cases ip with
    | none => simpa [ShortPort.ipPart] using hslash
    | some ip =>
      have := hip.no_slash ip
      cases hh : ranges.host <;> simp [ShortPort.ipPart, hh, hslash, this]
  have hsplit : splitProtocol (ShortPort.toStr ipShow ⟨ip, ranges, protocol⟩) = (body, protocol) := by
    unfold ShortPort.toStr
    simp only [hbody]
    exact splitProtocol_of_text hslash' h2
  unfold ShortPort.fromStr
  rw [hsplit]
  simp only [ShortPort.splitHostIp]
  have hcolon : ∀ x : Range, ':' ∉ x.toStr := fun x => not_mem_range_toStr rfl (by decide)
  cases ip with
  | none =>
    have hn : rsplitSecondColon body = none := by
      rw [rsplitSecondColon_eq_none, ← hbody]
      cases hh : ranges.host with
      | none => simp [ShortPort.ipPart, ShortRanges.toStr, hh, List.count_eq_zero.2 (hcolon _)]
      | some x => simp [ShortPort.ipPart, ShortRanges.toStr, hh, List.count_eq_zero.2 (hcolon _)]
    have hb : body = ranges.toStr := by rw [← hbody]; rfl
    simp only [hn]
    rw [hb, hrt]
  | some ip =>
    have hs : ∃ rest, rsplitSecondColon body = some (ipShow ip, rest) ∧ ShortRanges.fromStr rest = .ok ranges := by
      cases hh : ranges.host with
      | none =>
        refine ⟨':' :: ranges.toStr, rsplitSecondColon_eq_some.2 ⟨[], ranges.toStr, ?_, by simp, by simp, ?_⟩, ?_⟩
        · rw [← hbody]; simp [ShortPort.ipPart, hh]
        · simpa [ShortRanges.toStr, hh] using hcolon ranges.container
        · have e1 : ranges.toStr = ranges.container.toStr := by simp [ShortRanges.toStr, hh]
          have e2 : splitOnce ':' (':' :: ranges.toStr) = some ([], ranges.toStr) := rfl
          unfold ShortRanges.fromStr
          rw [e2]
          simp only [List.isEmpty_nil, if_true, e1, portNumbers_round_trip h1.1, ShortRanges.new]
          cases ranges
          simp only at hh
          rw [hh]; rfl
      | some x =>
        refine ⟨ranges.toStr, rsplitSecondColon_eq_some.2
          ⟨x.toStr, ranges.container.toStr, ?_, ?_, hcolon x, hcolon _⟩, hrt⟩
        · rw [← hbody]; simp [ShortPort.ipPart, hh, ShortRanges.toStr]
        · simp [hh, ShortRanges.toStr]
    obtain ⟨rest, e1, e2⟩ := hs
    simp only [e1, stripBrackets_of_no_bracket (hip.no_bracket ip), hip.round_trip ip, e2]

/-- C17: short ports written in a document read back (a bare container port is written as an integer). -/
theorem C17_short_port_serde_round_trip {Ip E : Type} (ipParse : Str → Except E Ip) (ipShow : Ip → Str)
    (hip : IpText ipParse ipShow) (p : ShortPort Ip) (h : ShortPortOk p) :
    deserializeFromStrOrU16 ShortPort.ofU16 (ShortPort.fromStr ipParse) (p.serialize ipShow) = .ok p := by
  have hrt := C17_short_port_round_trip ipParse ipShow hip p h
  obtain ⟨ip, ranges, protocol⟩ := p
  unfold ShortPort.serialize
  split
  · simp only [deserializeFromStrOrU16, hrt]
  · rename_i hc
    simp at hc
    obtain ⟨rfl, rfl⟩ := hc
    have htext : ShortPort.toStr ipShow ⟨none, ranges, none⟩ = ranges.toStr := by
      simp [ShortPort.toStr, ShortPort.ipPart, ShortPort.protocolPart]
    rw [htext] at hrt
    obtain ⟨host, container⟩ := ranges
    cases host with
    | some x => simp only [ShortRanges.serialize, Option.isSome_some, if_true, deserializeFromStrOrU16, hrt]
    | none =>
      simp only [ShortRanges.serialize, Option.isSome_none, Bool.false_eq_true, if_false, Range.serialize]
      obtain ⟨s, e⟩ := container
      cases e with
      | some e =>
        have : ShortRanges.toStr ⟨none, ⟨s, some e⟩⟩ = Range.toStr ⟨s, some e⟩ := by simp [ShortRanges.toStr]
        rw [this] at hrt
        simp only [Option.isSome_some, if_true, deserializeFromStrOrU16, hrt]
      | none =>
        have h1 : s ≤ u16Max := h.1.1.1
        simp only [Option.isSome_none, Bool.false_eq_true, if_false, deserializeFromStrOrU16, if_pos h1]
        rfl

/-! ### C18 - C20: short and long syntax -/

/-- C18: expanding a short port gives one long port per container port, in order; the `i`-th has the `i`-th
container port as target, the `i`-th host port as published port, and the IP and protocol of the short port;
nothing else is set. -/
theorem C18_short_port_into_long {Ip : Type} (V : Type) (p : ShortPort Ip) (h : Balanced p.ranges) :
    (p.intoLongIter V).length = portCount p.ranges.container ∧
    ∀ i, i < portCount p.ranges.container →
      (p.intoLongIter V)[i]? = some
        { name := none
          target := p.ranges.container.start + i
          published := p.ranges.host.map fun host => ⟨host.start + i, none⟩
          hostIp := p.hostIp
          protocol := p.protocol
          appProtocol := none
          mode := none
          extensions := [] } := by
  unfold ShortPort.intoLongIter
  rw [shortRanges_toList h]
  refine ⟨by simp, ?_⟩
  intro i hi
  simp only [List.map_map, List.getElem?_map]
  rw [List.getElem?_range hi]
  simp only [Option.map_some, Function.comp, Option.map_map]
  congr

example : Balanced (ShortPort.ranges (⟨some (), ⟨some ⟨80, some 81⟩, ⟨90, some 91⟩⟩, none⟩ : ShortPort Unit)) := by
  rintro h hh; cases hh; decide

/-- C19: if a long port is converted, expanding the short port gives back exactly that port; otherwise the port
is returned unchanged. -/
theorem C19_into_short_lossless {Ip V : Type} (p : Port Ip V) :
    (∀ sp, p.intoShort = .ok sp → sp.intoLongIter V = [p]) ∧ (∀ q, p.intoShort = .error q → q = p) := by
  refine ⟨?_, fun q h => intoShort_error h⟩
  intro sp h
  obtain ⟨⟨h1, h2, h3, h4, h5⟩, rfl⟩ := intoShort_ok.1 h
  obtain ⟨name, target, published, hostIp, protocol, appProtocol, mode, extensions⟩ := p
  simp only at h1 h2 h3 h4 h5
  subst h1 h2 h3 h4
  have : Balanced ⟨published, Range.ofU16 target⟩ := by
    rintro x rfl
    simp [portCount, lastPort, h5 x rfl, Range.ofU16]
  unfold ShortPort.intoLongIter
  rw [shortRanges_toList this]
  have hc : portCount (Range.ofU16 target) = 1 := by simp [portCount, lastPort, Range.ofU16]
  simp only [hc]
  cases published with
  | none => simp [Range.ofU16]
  | some x =>
    have h5 := h5 x rfl
    obtain ⟨s, e⟩ := x
    simp only at h5
    subst h5
    simp [Range.ofU16]

example : ({ target := 90, published := some ⟨80, none⟩, hostIp := some true } : Port Bool Unit).intoShort =
    .ok ⟨some true, ⟨some ⟨80, none⟩, ⟨90, none⟩⟩, none⟩ := by decide

/-- C19: a long port is converted exactly when some short port expands to it alone. -/
theorem C19_into_short_complete {Ip V : Type} (p : Port Ip V) :
    (∃ sp, p.intoShort = .ok sp) ↔ ∃ sp : ShortPort Ip, sp.intoLongIter V = [p] := by
  constructor
  · rintro ⟨sp, h⟩; exact ⟨sp, (C19_into_short_lossless p).1 sp h⟩
  · rintro ⟨sp, h⟩
    unfold ShortPort.intoLongIter at h
    have hp : p ∈ [p] := by simp
    rw [← h, List.mem_map] at hp
    obtain ⟨⟨host, container⟩, _, rfl⟩ := hp
    refine ⟨_, intoShort_ok.2 ⟨⟨rfl, rfl, rfl, rfl, ?_⟩, rfl⟩⟩
    rintro r hr
    cases host with
    | none => cases hr
    | some n => cases hr; rfl

example : ∃ sp : ShortPort Bool, sp.intoLongIter Unit = [{ target := 90, published := some ⟨80, none⟩, hostIp := some true }] :=
  (C19_into_short_complete _).1 ⟨⟨some true, ⟨some ⟨80, none⟩, ⟨90, none⟩⟩, none⟩, by decide⟩

/-- C20: expansion of a list of ports: nothing for the empty list, a long port stands for itself, a short port for
its expansion, and lists are expanded left to right. -/
theorem C20_into_long_iter {Ip V : Type} :
    portsIntoLongIter (Ip := Ip) (V := V) [] = [] ∧
    (∀ p : Port Ip V, portsIntoLongIter [.long p] = [p]) ∧
    (∀ sp : ShortPort Ip, portsIntoLongIter (V := V) [.short sp] = sp.intoLongIter V) ∧
    (∀ a b : List (ShortOrLong (ShortPort Ip) (Port Ip V)),
      portsIntoLongIter (a ++ b) = portsIntoLongIter a ++ portsIntoLongIter b) := by
  refine ⟨rfl, ?_, ?_, ?_⟩ <;> simp [portsIntoLongIter]

example : portsIntoLongIter (Ip := Bool) (V := Unit) [.short ⟨none, ⟨none, ⟨90, some 91⟩⟩, none⟩, .long { target := 5 }] =
    [{ target := 90 }, { target := 91 }, { target := 5 }] := by decide

/-- C20: conversion to short syntax keeps the number and order of ports; a short port stays, a long port becomes
its short form or stays. -/
theorem C20_into_short_iter {Ip V : Type} (ports : List (ShortOrLong (ShortPort Ip) (Port Ip V))) :
    (portsIntoShortIter ports).length = ports.length ∧
    (∀ (i : Nat) (sp : ShortPort Ip), ports[i]? = some (.short sp) →
      (portsIntoShortIter ports)[i]? = some (.ok sp)) ∧
    (∀ (i : Nat) (p : Port Ip V) (sp : ShortPort Ip), ports[i]? = some (.long p) → p.intoShort = .ok sp →
      (portsIntoShortIter ports)[i]? = some (.ok sp)) ∧
    (∀ (i : Nat) (p : Port Ip V), ports[i]? = some (.long p) → (∀ sp, p.intoShort ≠ .ok sp) →
      (portsIntoShortIter ports)[i]? = some (.error p)) := by
  refine ⟨by simp [portsIntoShortIter], ?_, ?_, ?_⟩
  · intro i sp h; simp [portsIntoShortIter, h]
  · intro i p sp h h2; simp [portsIntoShortIter, h, h2]
  · intro i p h h2
    simp only [portsIntoShortIter, List.getElem?_map, h, Option.map_some]
    cases hs : p.intoShort with
    | ok sp => exact absurd hs (h2 sp)
    | error q => rw [(C19_into_short_lossless p).2 q hs]

example : portsIntoShortIter (Ip := Bool) (V := Unit)
    [.short ⟨none, ⟨none, ⟨90, some 91⟩⟩, none⟩, .long { target := 5 }, .long { target := 5, published := some ⟨1, some 2⟩ }] =
    [.ok ⟨none, ⟨none, ⟨90, some 91⟩⟩, none⟩, .ok ⟨none, ⟨none, ⟨5, none⟩⟩, none⟩,
      .error { target := 5, published := some ⟨1, some 2⟩ }] := by decide

/-- C20: converting to short syntax and expanding gives the same long ports as expanding directly. -/
theorem C20_short_then_long {Ip V : Type} (ports : List (ShortOrLong (ShortPort Ip) (Port Ip V))) :
    ((portsIntoShortIter ports).flatMap fun
      | .ok sp => sp.intoLongIter V
      | .error p => [p]) = portsIntoLongIter ports := by
  induction ports with
  | nil => rfl
  | cons x xs ih =>
    have e1 : portsIntoShortIter (x :: xs) = portsIntoShortIter [x] ++ portsIntoShortIter xs := by
      simp [portsIntoShortIter]
    have e2 := C20_into_long_iter.2.2.2 [x] xs
    rw [List.singleton_append] at e2
    rw [e1, e2, List.flatMap_append, ih]
    congr 1
    cases x with
    | short sp => simp [portsIntoShortIter, portsIntoLongIter]
    | long p =>
      cases hs : p.intoShort with
      | ok sp =>
        have := (C19_into_short_lossless p).1 sp hs
        simp [portsIntoShortIter, portsIntoLongIter, hs, this]
      | error q =>
        have := (C19_into_short_lossless p).2 q hs
        simp [portsIntoShortIter, portsIntoLongIter, hs, this]

example : ((portsIntoShortIter (Ip := Bool) (V := Unit) [.short ⟨none, ⟨none, ⟨90, some 91⟩⟩, none⟩, .long { target := 5 }]).flatMap
    fun | .ok sp => sp.intoLongIter Unit | .error p => [p]) = [{ target := 90 }, { target := 91 }, { target := 5 }] := by decide

/-! ### C21, C22 -/

/-- C21: a protocol reads back from its text unless it is `Other` with one of the two reserved names. -/
theorem C21_protocol_round_trip (p : Protocol) : Protocol.parse p.asStr = p ↔ ProtocolOk p := by
  constructor
  · intro h
    constructor
    · rintro rfl; exact absurd h (by decide)
    · rintro rfl; exact absurd h (by decide)
  · exact protocol_round_trip

example : ProtocolOk (.other "sctp".toList) ∧ ¬ ProtocolOk (.other "tcp".toList) :=
  ⟨(C21_protocol_round_trip _).1 (by decide), fun h => absurd ((C21_protocol_round_trip _).2 h) (by decide)⟩

/-- C21: the text of a parsed protocol is the text it was parsed from, and parsed protocols are canonical. -/
theorem C21_protocol_text (s : Str) : (Protocol.parse s).asStr = s ∧ ProtocolOk (Protocol.parse s) := by
  unfold Protocol.parse
  split
  · rename_i h; subst h; exact ⟨rfl, by constructor <;> simp⟩
  · split
    · rename_i h; subst h; exact ⟨rfl, by constructor <;> simp⟩
    · rename_i h1 h2
      exact ⟨rfl, by constructor <;> intro h <;> cases h <;> contradiction⟩

example : Protocol.parse "TCP".toList = .other "TCP".toList ∧ Protocol.parse "udp".toList = .udp := by decide

/-- C22: an expose entry with well-formed range and canonical protocol reads back from its text. -/
theorem C22_expose_round_trip (e : Expose) (h : PortNumbers e.range) (hp : ∀ p, e.protocol = some p → ProtocolOk p) :
    Expose.fromStr e.toStr = .ok e := by
  obtain ⟨range, protocol⟩ := e
  have hslash : '/' ∉ range.toStr := not_mem_range_toStr rfl (by decide)
  have htext : Expose.toStr ⟨range, protocol⟩ = range.toStr ++ ShortPort.protocolPart protocol := by
    cases protocol <;> rfl
  unfold Expose.fromStr
  rw [htext, splitProtocol_of_text hslash hp]
  simp only [portNumbers_round_trip h]

example : Expose.fromStr (Expose.toStr ⟨⟨80, some 82⟩, some .udp⟩) = .ok ⟨⟨80, some 82⟩, some .udp⟩ :=
  C22_expose_round_trip _ ⟨by decide, by rintro e h; cases h; decide⟩
    (by rintro p h; cases h; exact (C21_protocol_round_trip _).1 (by decide))

/-- C22: an expose entry written in a document reads back; without end and protocol it is the integer. -/
theorem C22_expose_serde_round_trip (e : Expose) (h : PortNumbers e.range)
    (hp : ∀ p, e.protocol = some p → ProtocolOk p) :
    deserializeFromStrOrU16 Expose.ofU16 (fun s => .ofExcept (Expose.fromStr s)) e.serialize = .ok e ∧
    (e.range.end = none → e.protocol = none → e.serialize = .u64 e.range.start) := by
  have hrt := C22_expose_round_trip e h hp
  refine ⟨?_, by intro h1 h2; simp [Expose.serialize, h1, h2]⟩
  unfold Expose.serialize
  split
  · rename_i hc
    obtain ⟨⟨s, e⟩, protocol⟩ := e
    simp at hc
    obtain ⟨rfl, rfl⟩ := hc
    have h1 : s ≤ u16Max := h.1
    simp only [deserializeFromStrOrU16, if_pos h1]; rfl
  · simp only [deserializeFromStrOrU16, hrt, Outcome.ofExcept]

example : Expose.serialize ⟨⟨80, none⟩, none⟩ = .u64 80 :=
  (C22_expose_serde_round_trip _ ⟨by decide, by simp⟩ (by simp)).2 rfl rfl

/-! ### Which texts are accepted -/

theorem sizable_iff {s : Str} {r : Range} (h : RangeText s r) : r.size ≠ none ↔ ¬ Unsizable r := by
  have hv := C14_range_parse_validates_partial s r ((C13_range_accepts s r).2 h)
  exact not_congr (size_eq_none hv.1 hv.2.1)

/-- C16: a text is accepted as a pair of ranges, and as which, exactly as `ShortRangesText` says. -/
theorem C16_short_ranges_accepts (s : Str) (r : ShortRanges) : ShortRanges.fromStr s = .ok r ↔ ShortRangesText s r := by
  have hcolon : ∀ {t x}, RangeText t x → ':' ∉ t := fun h => not_mem_rangeText h (by decide) (by decide) (by decide)
  constructor
  · intro h
    unfold ShortRanges.fromStr at h
    split at h
    · rename_i a b hs
      obtain ⟨rfl, hn⟩ := splitOnce_eq_some.1 hs
      by_cases ha : a = []
      · subst ha
        simp only [List.isEmpty_nil, if_true] at h
        split at h
        · cases h
        · rename_i c hc
          simp only [ShortRanges.new, rangeSizeEq, Outcome.ok.injEq] at h
          subst h
          exact .noHost ((C13_range_accepts _ _).1 hc)
      · simp only [List.isEmpty_iff, ha, if_false] at h
        cases hr : Range.fromStr a with
        | error e => rw [hr] at h; cases h
        | ok x =>
          rw [hr] at h
          simp only at h
          split at h
          · cases h
          · rename_i c hc
            rw [C13_range_accepts] at hr hc
            unfold ShortRanges.new at h
            have hx : rangeSizeEq (some x) c = .ok () := by
              revert h; cases rangeSizeEq (some x) c <;> simp
            have h1 : x.size ≠ none := fun e => by simp [rangeSizeEq, e] at hx
            have h2 : c.size ≠ none := fun e => by
              cases hs : x.size <;> simp [rangeSizeEq, e, hs] at hx
            rw [hx] at h
            simp only [Outcome.ok.injEq] at h
            subst h
            have := ShortRangesText.both hr hc ((sizable_iff hr).1 h1) ((sizable_iff hc).1 h2) (rangeSizeEq_ok hx x rfl)
            simpa using this
    · split at h
      · rename_i c hc
        cases h
        exact .container ((C13_range_accepts _ _).1 hc)
      · cases h
  · intro h
    cases h with
    | container h =>
      unfold ShortRanges.fromStr
      rw [splitOnce_eq_none.2 (hcolon h)]
      simp only [(C13_range_accepts _ _).2 h]; rfl
    | @noHost t c h =>
      unfold ShortRanges.fromStr
      rw [splitOnce_eq_some (a := []) (b := t) |>.2 ⟨by simp, by simp⟩]
      simp only [(C13_range_accepts _ _).2 h]; rfl
    | @both t u x c h1 h2 h3 h4 h5 =>
      unfold ShortRanges.fromStr
      rw [splitOnce_eq_some (a := t) (b := u) |>.2 ⟨by simp, hcolon h1⟩]
      simp only [List.isEmpty_iff, rangeText_ne_nil h1, if_false, (C13_range_accepts _ _).2 h1,
        (C13_range_accepts _ _).2 h2, ShortRanges.new,
        rangeSizeEq_sized ((sizable_iff h1).2 h3) ((sizable_iff h2).2 h4), if_pos h5]

/-- C21: which protocol a text names. -/
theorem C21_protocol_accepts (s : Str) (p : Protocol) : Protocol.parse s = p ↔ ProtocolText s p := by
  constructor
  · rintro rfl
    unfold Protocol.parse
    split
    · rename_i h; subst h; exact .tcp
    · split
      · rename_i h; subst h; exact .udp
      · rename_i h1 h2; exact .other h1 h2
  · rintro (_ | _ | ⟨h1, h2⟩)
    · rfl
    · rfl
    · have h1' : s ≠ ['t', 'c', 'p'] := h1
      have h2' : s ≠ ['u', 'd', 'p'] := h2
      unfold Protocol.parse; rw [if_neg h1', if_neg h2']

example : ProtocolText "udp".toList .udp := (C21_protocol_accepts _ _).1 (by decide)

theorem splitProtocol_iff {s t : Str} {p : Option Protocol} :
    splitProtocol s = (t, p) ↔ ∃ pt, s = t ++ pt ∧ '/' ∉ t ∧ ProtocolSuffix pt p := by
  constructor
  · intro h
    unfold splitProtocol at h
    split at h
    · rename_i a b hs
      cases h
      obtain ⟨rfl, hn⟩ := splitOnce_eq_some.1 hs
      exact ⟨'/' :: b, rfl, hn, .some ((C21_protocol_accepts b _).1 rfl)⟩
    · rename_i hs
      cases h
      exact ⟨[], by simp, splitOnce_eq_none.1 hs, .none⟩
  · rintro ⟨pt, rfl, hn, hp⟩
    unfold splitProtocol
    cases hp with
    | none => rw [List.append_nil, splitOnce_eq_none.2 hn]
    | @some u q h =>
      have hs : splitOnce '/' (t ++ ("/".toList ++ u)) = some (t, u) := splitOnce_eq_some.2 ⟨rfl, hn⟩
      rw [hs]
      simp only [(C21_protocol_accepts _ _).2 h]

theorem addressText_iff {Ip E : Type} {ipParse : Str → Except E Ip} {a : Str} {ip : Ip} :
    ipParse (stripBrackets a) = .ok ip ↔ AddressText ipParse a ip := by
  have hb : ∀ t : Str, stripBrackets ("[".toList ++ t ++ "]".toList) = t := fun t => by
    unfold stripBrackets
    have h1 : stripPrefix ['['] ("[".toList ++ t ++ "]".toList) = some (t ++ [']']) := stripPrefix_eq_some.2 (by simp)
    have h2 : stripSuffix [']'] (t ++ [']']) = some t := stripSuffix_eq_some.2 rfl
    rw [h1]; simp only [h2]; rfl
  by_cases h : ∃ t, a = "[".toList ++ t ++ "]".toList
  · obtain ⟨t, rfl⟩ := h
    rw [hb]
    constructor
    · exact .brackets
    · intro h
      generalize hx : "[".toList ++ t ++ "]".toList = x at h
      cases h with
      | plain hn _ => exact absurd ⟨t, hx.symm⟩ hn
      | brackets h => simp at hx; exact hx ▸ h
  · have : stripBrackets a = a := by
      unfold stripBrackets
      split
      · rename_i r hr
        have hr := stripPrefix_eq_some.1 hr
        cases h2 : stripSuffix [']'] r with
        | none => rfl
        | some t =>
          have := stripSuffix_eq_some.1 h2
          exact absurd ⟨t, by rw [hr, this]; simp⟩ h
      · rfl
    rw [this]
    constructor
    · exact .plain h
    · intro hx
      cases hx with
      | plain _ h => exact h
      | brackets _ => exact absurd ⟨_, rfl⟩ h

theorem shortRangesText_chars {t : Str} {r : ShortRanges} (h : ShortRangesText t r) :
    '/' ∉ t ∧ (t.count ':' ≤ 1) := by
  have hc : ∀ {t x}, RangeText t x → t.count ':' = 0 :=
    fun h => List.count_eq_zero.2 (not_mem_rangeText h (by decide) (by decide) (by decide))
  have hs : ∀ {t x}, RangeText t x → '/' ∉ t := fun h => not_mem_rangeText h (by decide) (by decide) (by decide)
  cases h with
  | container h => exact ⟨hs h, by rw [hc h]; omega⟩
  | noHost h => exact ⟨by simp [hs h], by simp [List.count_append, hc h]⟩
  | both h1 h2 => exact ⟨by simp [hs h1, hs h2], by simp [List.count_append, hc h1, hc h2]⟩

/-- C17: a text is accepted as a short port, and as which, exactly as `ShortPortText` says. -/
theorem C17_short_port_accepts {Ip E : Type} (ipParse : Str → Except E Ip) (s : Str) (p : ShortPort Ip) :
    ShortPort.fromStr ipParse s = .ok p ↔ ShortPortText ipParse s p := by
  constructor
  · intro h
    unfold ShortPort.fromStr at h
    obtain ⟨pt, hs, hn, hp⟩ := splitProtocol_iff (s := s) (t := (splitProtocol s).1) (p := (splitProtocol s).2) |>.1 rfl
    revert h hs hn hp
    generalize (splitProtocol s).1 = t
    generalize (splitProtocol s).2 = q
    intro h hs hn hp
    subst hs
    split at h
    · cases h
    · rename_i hostIp rest hsplit
      split at h
      · rename_i ranges hr
        cases h
        rw [C16_short_ranges_accepts] at hr
        unfold ShortPort.splitHostIp at hsplit
        split at hsplit
        · cases hsplit
          exact .ranges hr hp
        · rename_i a rest' hcolon
          split at hsplit
          · rename_i ip hip
            cases hsplit
            obtain ⟨x, y, rfl, rfl, -, -⟩ := rsplitSecondColon_eq_some.1 hcolon
            have := ShortPortText.address (addressText_iff.1 hip) (fun hm => hn (by simp [hm])) hr (by simp) hp
            simpa using this
          · cases hsplit
      · cases h
      · cases h
  · intro h
    cases h with
    | @ranges t pt r q hr hp =>
      unfold ShortPort.fromStr
      obtain ⟨h1, h2⟩ := shortRangesText_chars hr
      rw [splitProtocol_iff.2 ⟨pt, rfl, h1, hp⟩]
      simp only [ShortPort.splitHostIp, rsplitSecondColon_eq_none.2 h2, (C16_short_ranges_accepts _ _).2 hr]
    | @address a t pt ip r q ha hslash hr hm hp =>
      unfold ShortPort.fromStr
      obtain ⟨h1, h2⟩ := shortRangesText_chars hr
      rw [splitProtocol_iff.2 ⟨pt, rfl, by simp [hslash, h1], hp⟩]
      have hs : rsplitSecondColon (a ++ ":".toList ++ t) = some (a, t) := by
        obtain ⟨x, y, rfl⟩ := List.append_of_mem hm
        rw [List.count_append, List.count_cons_self] at h2
        refine rsplitSecondColon_eq_some.2 ⟨x, y, by simp, rfl, ?_, ?_⟩
        · exact List.count_eq_zero.1 (by omega)
        · exact List.count_eq_zero.1 (by omega)
      simp only [ShortPort.splitHostIp, hs, addressText_iff.2 ha, (C16_short_ranges_accepts _ _).2 hr]

/-- C22: a text is accepted as an expose entry, and as which, exactly as `ExposeText` says. -/
theorem C22_expose_accepts (s : Str) (e : Expose) : Expose.fromStr s = .ok e ↔ ExposeText s e := by
  constructor
  · intro h
    unfold Expose.fromStr at h
    obtain ⟨pt, hs, hn, hp⟩ := splitProtocol_iff (s := s) (t := (splitProtocol s).1) (p := (splitProtocol s).2) |>.1 rfl
    split at h
    · rename_i r hr
      cases h
      have := ExposeText.expose ((C13_range_accepts _ _).1 hr) hp
      rwa [← hs] at this
    · cases h
  · rintro @⟨t, pt, r, p, hr, hp⟩
    unfold Expose.fromStr
    rw [splitProtocol_iff.2 ⟨pt, rfl, not_mem_rangeText hr (by decide) (by decide) (by decide), hp⟩]
    simp only [(C13_range_accepts _ _).2 hr]

/-! ### Examples -/

example : RangeOk ⟨8000, some 8010⟩ := ⟨by decide, by rintro e he; cases he; decide⟩
example : Range.new 8010 (some 8000) = .error ⟨8010, 8000⟩ := by decide
example : Range.fromStr "8000-8010".toList = .ok ⟨8000, some 8010⟩ := by decide
example : Range.size ⟨8000, some 8010⟩ = some 11 := by decide
example : Range.add ⟨65000, some 65535⟩ 1 = none := by decide
example : Range.add ⟨65000, some 65534⟩ 1 = some ⟨65001, some 65535⟩ := by decide
example : Range.fromStr "9-5".toList = .ok ⟨9, some 5⟩ ∧ Range.sub ⟨9, some 5⟩ 5 = some ⟨4, some 0⟩ := by decide
example : Range.sub ⟨5, some 9⟩ 5 = some ⟨0, some 4⟩ := by decide
example : UnsizableRanges "0-65535:80".toList :=
  ⟨"0-65535".toList, "80".toList, fullRange, ⟨80, none⟩, by decide, (C13_range_accepts _ _).1 (by decide),
    (C13_range_accepts _ _).1 (by decide), .inl (.inr rfl)⟩
example : ShortRanges.fromStr "3000-3002:80-82".toList =
    .ok ⟨some ⟨3000, some 3002⟩, ⟨80, some 82⟩⟩ := by decide
example : ShortRanges.toList ⟨some ⟨3000, some 3002⟩, ⟨80, some 82⟩⟩ =
    [(some 3000, 80), (some 3001, 81), (some 3002, 82)] := by decide
example : ShortRangesText "3000-3002:80-82".toList ⟨some ⟨3000, some 3002⟩, ⟨80, some 82⟩⟩ :=
  (C16_short_ranges_accepts _ _).1 (by decide)
example : ProtocolText "sctp".toList (.other "sctp".toList) := .other (by decide) (by decide)
example : ExposeText "80-82/udp".toList ⟨⟨80, some 82⟩, some .udp⟩ := (C22_expose_accepts _ _).1 (by decide)
example : ¬ ∃ e, ExposeText "80:82".toList e := by
  rintro ⟨e, h⟩
  have : Expose.fromStr "80:82".toList = .error (.int .invalidDigit "80:82".toList) := by decide
  rw [(C22_expose_accepts _ _).2 h] at this; cases this
example : ShortRanges.fromStr "3000-3002:80".toList = .err (.shortRanges ⟨3, 1⟩) := by decide

/-- A history of operations in which some succeed and some are rejected. -/
example : ([.replaceHost ⟨9000, some 9001⟩, .replaceHost ⟨9000, some 9002⟩, .replaceContainer ⟨5, none⟩,
    .takeHost, .replaceContainer ⟨5, none⟩] : List RangesOp).foldl applyOp ⟨none, ⟨80, some 82⟩⟩ =
    ⟨none, ⟨5, none⟩⟩ := by decide

/-- IP addresses with an IPv4-like and an IPv6-like text satisfy the hypotheses of C17. -/
def exampleIpShow : Bool → Str
  | true => "127.0.0.1".toList
  | false => "::1".toList
def exampleIpParse (s : Str) : Except Unit Bool :=
  if s = "127.0.0.1".toList then .ok true else if s = "::1".toList then .ok false else .error ()
theorem exampleIp : IpText exampleIpParse exampleIpShow where
  round_trip := by decide
  no_slash := by decide
  no_bracket := by decide

example : ShortPort.fromStr exampleIpParse "::1:8000-8001:9000-9001/udp".toList =
    .ok ⟨some false, ⟨some ⟨8000, some 8001⟩, ⟨9000, some 9001⟩⟩, some .udp⟩ := by decide
example : ShortPort.fromStr exampleIpParse "[::1]::9000".toList =
    .ok ⟨some false, ⟨none, ⟨9000, none⟩⟩, none⟩ := by decide
example : ShortPortText exampleIpParse "[::1]::9000".toList ⟨some false, ⟨none, ⟨9000, none⟩⟩, none⟩ :=
  (C17_short_port_accepts ..).1 (by decide)
example : ShortPort.toStr exampleIpShow ⟨some true, ⟨none, ⟨9000, none⟩⟩, some (.other "sctp".toList)⟩ =
    "127.0.0.1::9000/sctp".toList := by decide
example : ShortPort.intoLongIter Unit (⟨some true, ⟨some ⟨80, some 81⟩, ⟨90, some 91⟩⟩, none⟩ : ShortPort Bool) =
    [{ target := 90, published := some ⟨80, none⟩, hostIp := some true },
     { target := 91, published := some ⟨81, none⟩, hostIp := some true }] := by decide
example : ({ target := 90, published := some ⟨80, some 81⟩ } : Port Bool Unit).intoShort =
    .error { target := 90, published := some ⟨80, some 81⟩ } := by decide
example : Expose.fromStr "3000-3001/tcp".toList = .ok ⟨⟨3000, some 3001⟩, some .tcp⟩ := by decide

/-- A port that meets the hypotheses of `C17_short_port_round_trip` and `C17_short_port_serde_round_trip`. -/
theorem exampleShortPort : ShortPortOk (⟨some false, ⟨some ⟨8000, none⟩, ⟨9000, none⟩⟩, some .udp⟩ : ShortPort Bool) :=
  ⟨⟨⟨by decide, by simp⟩, by
      rintro h hh; cases hh
      exact ⟨⟨by decide, by simp⟩, by simp [Unsizable, fullRange, lastPort], by simp [Unsizable, fullRange, lastPort], rfl⟩⟩,
    by rintro p hp; cases hp; exact (C21_protocol_round_trip _).1 (by decide)⟩

example : ShortPort.fromStr exampleIpParse
    (ShortPort.toStr exampleIpShow ⟨some false, ⟨some ⟨8000, none⟩, ⟨9000, none⟩⟩, some .udp⟩) =
    .ok ⟨some false, ⟨some ⟨8000, none⟩, ⟨9000, none⟩⟩, some .udp⟩ :=
  C17_short_port_round_trip _ _ exampleIp _ exampleShortPort
example : deserializeFromStrOrU16 ShortPort.ofU16 (ShortPort.fromStr exampleIpParse)
    (ShortPort.serialize exampleIpShow ⟨some false, ⟨some ⟨8000, none⟩, ⟨9000, none⟩⟩, some .udp⟩) =
    .ok ⟨some false, ⟨some ⟨8000, none⟩, ⟨9000, none⟩⟩, some .udp⟩ :=
  C17_short_port_serde_round_trip _ _ exampleIp _ exampleShortPort

end Props
