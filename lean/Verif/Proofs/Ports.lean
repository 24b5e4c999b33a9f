import Verif.Spec.Ports
import Verif.Proofs.Number

/- Helper lemmas for ports. -/

namespace Compose
open Rust Spec

theorem length_toList (r : Range) : r.toList.length = portCount r := by
  simp [Range.toList, portCount, lastPort]

theorem size_eq {r : Range} (h : r.size ≠ none) : r.size = some (portCount r) := by
  unfold Range.size at *
  unfold portCount lastPort
  cases he : r.end with
  | none => simp
  | some e =>
    rw [he] at h
    simp only [ne_eq, Option.getD_some] at *
    split
    · rename_i h1; simp [h1] at h
    · rename_i h1
      split
      · rename_i h2; simp [h1, h2] at h
      · simp; omega

theorem size_ne_none {r : Range} (h : RangeOk r) (hf : r ≠ fullRange) : r.size ≠ none := by
  unfold Range.size
  cases he : r.end with
  | none => simp
  | some e =>
    obtain ⟨h1, h2⟩ := h.2 e he
    simp only [ne_eq]
    rw [if_neg (by omega), if_neg]
    · simp
    · intro h3
      apply hf
      cases r
      simp only at *
      subst he
      simp only [fullRange, Range.mk.injEq, Option.some.injEq, u16Max] at *
      omega

theorem parseInt_ok {s : Str} {n : Nat} : Range.parseInt s = .ok n ↔ UInt u16Max s n := by
  unfold Range.parseInt
  rw [← parseUnsigned_iff]
  cases parseUnsigned u16Max s <;> simp

theorem no_char_of_uint {max : Nat} {s : Str} {n : Nat} (h : UInt max s n) {c : Char}
    (hc : isDigit c = false) (hp : c ≠ '+') : c ∉ s := by
  intro hm
  rcases h.chars c hm with h | h
  · rw [hc] at h; cases h
  · exact hp h

theorem range_fromStr_iff {s : Str} {r : Range} :
    Range.fromStr s = .ok r ↔
      (∃ n, UInt u16Max s n ∧ r = ⟨n, none⟩) ∨
      (∃ a b m n, s = a ++ '-' :: b ∧ UInt u16Max a m ∧ UInt u16Max b n ∧ r = ⟨m, some n⟩) := by
  unfold Range.fromStr
  cases hs : splitOnce '-' s with
  | none =>
    have hn := splitOnce_eq_none.1 hs
    simp only
    constructor
    · intro h
      split at h
      · cases h
      · rename_i n hn'
        cases h
        exact Or.inl ⟨n, parseInt_ok.1 hn', rfl⟩
    · rintro (⟨n, h1, rfl⟩ | ⟨a, b, m, n, h1, h2, h3, rfl⟩)
      · rw [parseInt_ok.2 h1]
      · rw [h1] at hn; simp at hn
  | some p =>
    obtain ⟨a, b⟩ := p
    obtain ⟨h1, h2⟩ := splitOnce_eq_some.1 hs
    simp only
    constructor
    · intro h
      split at h
      · cases h
      · rename_i m hm
        split at h
        · cases h
        · rename_i n hn
          cases h
          exact Or.inr ⟨a, b, m, n, h1, parseInt_ok.1 hm, parseInt_ok.1 hn, rfl⟩
    · rintro (⟨n, h3, rfl⟩ | ⟨a', b', m, n, h3, h4, h5, rfl⟩)
      · have := no_char_of_uint h3 (c := '-') rfl (by decide)
        rw [h1] at this; simp at this
      · have hn := no_char_of_uint h4 (c := '-') rfl (by decide)
        have := splitOnce_eq_some.2 ⟨h3, hn⟩
        rw [hs] at this
        cases this
        rw [parseInt_ok.2 h4, parseInt_ok.2 h5]

theorem not_mem_showNat {n : Nat} {c : Char} (hc : isDigit c = false) : c ∉ showNat n := by
  intro h; rw [isDigit_of_mem_showNat h] at hc; cases hc

/-- The text of a range has only digits and `-`. -/
theorem not_mem_range_toStr {r : Range} {c : Char} (hc : isDigit c = false) (h : c ≠ '-') :
    c ∉ r.toStr := by
  unfold Range.toStr
  cases r.end with
  | none => simpa using not_mem_showNat hc
  | some e => simp [not_mem_showNat hc, h]

theorem range_toStr_ne_nil (r : Range) : r.toStr ≠ [] := by
  unfold Range.toStr
  simp [showNat_ne_nil]

/-- A range with `u16` numbers reads back. -/
theorem range_round_trip {r : Range} (h1 : r.start ≤ u16Max) (h2 : ∀ e, r.end = some e → e ≤ u16Max) :
    Range.fromStr r.toStr = .ok r := by
  rw [range_fromStr_iff]
  cases r with
  | mk s e =>
    cases e with
    | none => exact Or.inl ⟨s, by simpa [Range.toStr] using uint_showNat h1, rfl⟩
    | some e =>
      exact Or.inr ⟨showNat s, showNat e, s, e, by simp [Range.toStr], uint_showNat h1,
        uint_showNat (h2 e rfl), rfl⟩

theorem portNumbers_round_trip {r : Range} (h : PortNumbers r) : Range.fromStr r.toStr = .ok r :=
  range_round_trip h.1 h.2

theorem size_of_sizable {r : Range} (h : PortNumbers r) (hu : ¬ Unsizable r) : r.size ≠ none := by
  obtain ⟨s, e⟩ := r
  simp only [Unsizable, not_or, lastPort, fullRange] at hu
  cases e with
  | none => simp [Range.size]
  | some e =>
    have he := h.2 e rfl
    simp only [Option.getD_some, Range.mk.injEq, Option.some.injEq, not_and] at hu
    have h1 : ¬ e < s := hu.1
    have h2 : ¬ e - s + 1 > u16Max := by
      simp only [u16Max]
      intro h3
      exact hu.2 (by omega) (by omega)
    simp [Range.size, h1, h2]

/-- `range_size_eq` succeeds only when the ranges have the same number of ports. -/
theorem rangeSizeEq_ok {h : Option Range} {c : Range} (hok : rangeSizeEq h c = .ok ()) :
    ∀ r, h = some r → portCount r = portCount c := by
  rintro r rfl
  unfold rangeSizeEq at hok
  simp only at hok
  cases h1 : r.size with
  | none => rw [h1] at hok; cases hok
  | some a =>
    cases h2 : c.size with
    | none => rw [h1, h2] at hok; cases hok
    | some b =>
      rw [h1, h2] at hok
      simp only at hok
      have e1 := size_eq (r := r) (by rw [h1]; simp)
      have e2 := size_eq (r := c) (by rw [h2]; simp)
      rw [h1] at e1; rw [h2] at e2
      cases e1; cases e2
      split at hok
      · cases hok
      · rename_i h; exact Classical.not_not.1 h

theorem rangeSizeEq_sized {h c : Range} (h1 : h.size ≠ none) (h2 : c.size ≠ none) :
    rangeSizeEq (some h) c =
      if portCount h = portCount c then .ok () else .err ⟨portCount h, portCount c⟩ := by
  simp only [rangeSizeEq, size_eq h1, size_eq h2]
  split <;> rename_i h <;> simp [h]

/-- A well-formed pair of ranges passes the check. -/
theorem rangeSizeEq_of_ok {r : ShortRanges} (h : ShortRangesOk r) : rangeSizeEq r.host r.container = .ok () := by
  cases hh : r.host with
  | none => rfl
  | some x =>
    obtain ⟨h1, h2, h3, h4⟩ := h.2 x hh
    rw [rangeSizeEq_sized (size_of_sizable h1 h2) (size_of_sizable h.1 h3), if_pos h4]

theorem shortRanges_toStr_round_trip {r : ShortRanges} (h : ShortRangesOk r) :
    ShortRanges.fromStr r.toStr = .ok r := by
  have hsz := rangeSizeEq_of_ok h
  have hcolon : ∀ x : Range, ':' ∉ x.toStr := fun x => not_mem_range_toStr rfl (by decide)
  cases r with
  | mk host container =>
    obtain ⟨h1, h2⟩ := h
    cases host with
    | none =>
      unfold ShortRanges.fromStr ShortRanges.toStr
      simp only [List.nil_append]
      rw [splitOnce_eq_none.2 (hcolon container)]
      simp only [portNumbers_round_trip h1]
      rfl
    | some x =>
      have hs : splitOnce ':' (ShortRanges.toStr ⟨some x, container⟩) = some (x.toStr, container.toStr) :=
        splitOnce_eq_some.2 ⟨by simp [ShortRanges.toStr], hcolon x⟩
      unfold ShortRanges.fromStr
      rw [hs]
      simp only [List.isEmpty_iff, range_toStr_ne_nil, if_false, portNumbers_round_trip (h2 x rfl).1,
        portNumbers_round_trip h1, ShortRanges.new, hsz]

/-- The iterator in closed form. -/
theorem iterate_eq (host : Option (List Nat)) (c : List Nat)
    (h : ∀ l, host = some l → l.length = c.length) :
    ShortRanges.iterate host c =
      (List.range c.length).map fun i => (host.bind (·[i]?), c.getD i 0) := by
  induction c generalizing host with
  | nil => simp [ShortRanges.iterate]
  | cons x xs ih =>
    rw [ShortRanges.iterate, ih]
    · rw [List.length_cons, List.range_succ_eq_map, List.map_cons, List.map_map]
      congr 1
      · cases host with
        | none => rfl
        | some l => cases l <;> rfl
      · apply List.map_congr_left
        intro i hi
        cases host with
        | none => rfl
        | some l => cases l <;> simp
    · intro l hl
      cases host with
      | none => cases hl
      | some l' => cases hl; have := h l' rfl; simp at *; omega

theorem toList_getD (r : Range) (i : Nat) (h : i < portCount r) : r.toList[i]? = some (r.start + i) := by
  have : i < r.end.getD r.start + 1 - r.start := h
  simp only [Range.toList]
  rw [List.getElem?_map, List.getElem?_range this]
  rfl

theorem shortRanges_toList {r : ShortRanges} (h : Balanced r) :
    r.toList = (List.range (portCount r.container)).map fun i =>
      (r.host.map (·.start + i), r.container.start + i) := by
  unfold ShortRanges.toList
  rw [iterate_eq]
  · rw [length_toList]
    apply List.map_congr_left
    intro i hi
    have hi := List.mem_range.1 hi
    cases hh : r.host with
    | none => simp [toList_getD _ _ hi]
    | some x =>
      have := h x hh
      simp [toList_getD _ _ hi, toList_getD x i (by omega)]
  · intro l hl
    cases hh : r.host with
    | none => rw [hh] at hl; cases hl
    | some x =>
      rw [hh] at hl; cases hl
      rw [length_toList, length_toList]; exact h x hh

theorem stripBrackets_of_no_bracket {s : Str} (h : '[' ∉ s) : stripBrackets s = s := by
  unfold stripBrackets
  cases h' : stripPrefix ['['] s with
  | none => rfl
  | some r =>
    have := stripPrefix_eq_some.1 h'
    rw [this] at h; simp at h

theorem rsplitSecondColon_eq_some {s x y : Str} :
    rsplitSecondColon s = some (x, y) ↔ ∃ a b, s = x ++ ':' :: (a ++ ':' :: b) ∧ y = a ++ ':' :: b ∧
      ':' ∉ a ∧ ':' ∉ b := by
  unfold rsplitSecondColon
  constructor
  · intro h
    split at h
    · cases h
    · rename_i a b h1
      obtain ⟨e1, e2⟩ := rsplitOnce_eq_some.1 h1
      split at h
      · cases h
      · rename_i x' y' h2
        obtain ⟨e3, e4⟩ := rsplitOnce_eq_some.1 h2
        cases h
        exact ⟨y', b, by rw [e1, e3]; simp, rfl, e4, e2⟩
  · rintro ⟨a, b, rfl, rfl, h1, h2⟩
    have e1 : rsplitOnce ':' (x ++ ':' :: (a ++ ':' :: b)) = some (x ++ ':' :: a, b) :=
      rsplitOnce_eq_some.2 ⟨by simp, h2⟩
    have e2 : rsplitOnce ':' (x ++ ':' :: a) = some (x, a) := rsplitOnce_eq_some.2 ⟨rfl, h1⟩
    rw [e1]; simp only [e2]

theorem rsplitSecondColon_eq_none {s : Str} :
    rsplitSecondColon s = none ↔ s.count ':' ≤ 1 := by
  unfold rsplitSecondColon
  cases h1 : rsplitOnce ':' s with
  | none =>
    have := rsplitOnce_eq_none.1 h1
    simp [List.count_eq_zero.2 this]
  | some p =>
    obtain ⟨a, b⟩ := p
    obtain ⟨e1, e2⟩ := rsplitOnce_eq_some.1 h1
    have hc : s.count ':' = a.count ':' + 1 := by
      rw [e1, List.count_append, List.count_cons_self, List.count_eq_zero.2 e2]
    simp only
    cases h2 : rsplitOnce ':' a with
    | none =>
      have := rsplitOnce_eq_none.1 h2
      simp [hc, List.count_eq_zero.2 this]
    | some q =>
      obtain ⟨x, y⟩ := q
      obtain ⟨e3, e4⟩ := rsplitOnce_eq_some.1 h2
      have : 0 < a.count ':' := List.count_pos_iff.2 (by rw [e3]; simp)
      simp; omega

theorem protocol_round_trip {p : Protocol} (h : ProtocolOk p) : Protocol.parse p.asStr = p := by
  cases p with
  | tcp => rfl
  | udp => rfl
  | other s =>
    unfold Protocol.parse Protocol.asStr
    rw [if_neg, if_neg]
    · rintro rfl; exact h.2 rfl
    · rintro rfl; exact h.1 rfl

/-- When a long port has a short form, and which. -/
theorem intoShort_ok {Ip V : Type} {p : Port Ip V} {sp : ShortPort Ip} :
    p.intoShort = .ok sp ↔
      (p.name = none ∧ p.appProtocol = none ∧ p.mode = none ∧ p.extensions = [] ∧
        ∀ r, p.published = some r → r.end = none) ∧
      sp = ⟨p.hostIp, ⟨p.published, .ofU16 p.target⟩, p.protocol⟩ := by
  unfold Port.intoShort
  split
  · rename_i h
    simp only [Bool.and_eq_true, Option.isNone_iff_eq_none, List.isEmpty_iff] at h
    obtain ⟨⟨⟨⟨h1, h2⟩, h3⟩, h4⟩, h5⟩ := h
    constructor
    · intro h
      cases h
      refine ⟨⟨h1, h2, h3, h4, ?_⟩, rfl⟩
      intro r hr; rw [hr] at h5; simpa using h5
    · rintro ⟨_, rfl⟩; rfl
  · rename_i h
    simp only [reduceCtorEq, false_iff]
    rintro ⟨⟨h1, h2, h3, h4, h5⟩, _⟩
    apply h
    simp only [h1, h2, h3, h4, Option.isNone_none, List.isEmpty_nil, Bool.true_and]
    cases hp : p.published with
    | none => rfl
    | some r => simp [h5 r hp]

theorem intoShort_error {Ip V : Type} {p q : Port Ip V} (h : p.intoShort = .error q) : q = p := by
  unfold Port.intoShort at h
  split at h
  · cases h
  · cases h; rfl

theorem splitProtocol_of_text {body : Str} (hb : '/' ∉ body) {p : Option Protocol}
    (hp : ∀ q, p = some q → ProtocolOk q) :
    splitProtocol (body ++ ShortPort.protocolPart p) = (body, p) := by
  unfold splitProtocol
  cases p with
  | none => simp only [ShortPort.protocolPart, List.append_nil, splitOnce_eq_none.2 hb]
  | some q =>
    have : splitOnce '/' (body ++ '/' :: q.asStr) = some (body, q.asStr) := splitOnce_eq_some.2 ⟨rfl, hb⟩
    simp only [ShortPort.protocolPart, this, protocol_round_trip (hp q rfl)]

end Compose
