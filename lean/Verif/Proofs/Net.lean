import Verif.Std.Net
import Verif.Spec.Net
import Verif.Props.Mac

/- Reading and writing IP addresses. -/

namespace Proofs
open Rust Rust.Net Spec

/-- The number of digits. -/
def valueIn (dig : Char → Option Nat) (radix : Nat) (ds : Str) : Nat := ds.foldl (fun a c => a * radix + (dig c).getD 0) 0

/-- Nothing follows that is a digit. -/
def NoDigit (dig : Char → Option Nat) (s : Str) : Prop := ∀ c cs, s = c :: cs → dig c = none

theorem span_append {p : Char → Bool} {a b : Str} (ha : ∀ c ∈ a, p c = true) (hb : ∀ c cs, b = c :: cs → p c = false) :
    (a ++ b).takeWhile p = a ∧ (a ++ b).dropWhile p = b := by
  induction a with
  | nil =>
    cases b with
    | nil => simp
    | cons c cs => simp [hb c cs rfl]
  | cons x xs ih =>
    have := ih fun c hc => ha c (by simp [hc])
    simp [ha x (by simp), this.1, this.2]

theorem readNumber_iff {dig : Char → Option Nat} {radix max bound : Nat} {z : Bool} {s rest : Str} {n : Nat} :
    readNumber dig radix max bound z s = some (n, rest) ↔
      ∃ ds, s = ds ++ rest ∧ (∀ c ∈ ds, (dig c).isSome = true) ∧ NoDigit dig rest ∧ ds ≠ [] ∧ ds.length ≤ max ∧
        (z = false → ds.head? = some '0' → ds.length ≤ 1) ∧ valueIn dig radix ds = n ∧ n < bound := by
  constructor
  · intro h
    unfold readNumber at h
    simp only at h
    split at h
    · cases h
    split at h
    · cases h
    split at h
    · cases h
    split at h
    · cases h
    rename_i h1 h2 h3 h4
    simp only [Option.some.injEq, Prod.mk.injEq] at h
    refine ⟨_, ?_, ?_, ?_, h2, by omega, ?_, h.1, by omega⟩
    · rw [← h.2, List.takeWhile_append_dropWhile]
    · intro c hc; exact List.all_eq_true.1 (List.all_takeWhile (p := fun c => (dig c).isSome)) c hc
    · intro c cs hc
      rw [← h.2] at hc
      have := List.head?_dropWhile_not (p := fun c => (dig c).isSome) (l := s)
      rw [hc] at this
      simpa using this
    · intro hz h0
      simp only [hz, h0, Bool.not_false, Bool.true_and, decide_true, decide_eq_true_eq] at h3
      omega
  · rintro ⟨ds, rfl, h1, h2, h3, h4, h5, h6, h7⟩
    have hs := span_append (p := fun c => (dig c).isSome) (a := ds) (b := rest) h1 (fun c cs h => by simp [h2 c cs h])
    unfold readNumber
    simp only [hs.1, hs.2]
    rw [if_neg (by omega), if_neg h3, if_neg, if_neg]
    · rw [← h6]; rfl
    · rw [← h6] at h7; exact not_le.2 h7
    · intro h
      simp only [Bool.and_eq_true, Bool.not_eq_true', decide_eq_true_eq] at h
      have := h5 h.1.1 h.1.2
      omega

/-! ### IPv4 -/

theorem isSome_toDigit {c : Char} : (toDigit c).isSome = true ↔ isDigit c = true := by
  unfold toDigit; split <;> simp_all

theorem valueIn_dec {ds : Str} (h : ∀ c ∈ ds, isDigit c = true) : valueIn toDigit 10 ds = digitsValue ds := by
  have : ∀ a, ds.foldl (fun a c => a * 10 + (toDigit c).getD 0) a = ds.foldl (fun a c => a * 10 + (c.toNat - 48)) a := by
    induction ds with
    | nil => exact fun _ => rfl
    | cons c cs ih =>
      intro a
      rw [List.foldl_cons, List.foldl_cons, show toDigit c = some (c.toNat - 48) by simp [toDigit, h c (by simp)]]
      exact ih (fun x hx => h x (by simp [hx])) _
  exact this 0

theorem digitsValue_snoc (ds : Str) (c : Char) : digitsValue (ds ++ [c]) = digitsValue ds * 10 + (c.toNat - 48) := by
  simp [digitsValue]

theorem digitChar_sub {c : Char} (h : isDigit c = true) : Nat.digitChar (c.toNat - 48) = c := by
  obtain ⟨h1, h2⟩ := isDigit_iff.1 h
  refine Re.char_ext_toNat ?_
  generalize hn : c.toNat = n at *
  interval_cases n <;> rfl

/-- Digits without a leading zero are the decimal text of their value. -/
theorem showNat_digitsValue {ds : Str} (h : ∀ c ∈ ds, isDigit c = true) (hne : ds ≠ []) (h0 : ds.head? = some '0' → ds.length ≤ 1) :
    showNat (digitsValue ds) = ds ∧ (1 < ds.length → 0 < digitsValue ds) := by
  induction ds using List.reverseRecOn with
  | nil => exact absurd rfl hne
  | append_singleton ds c ih =>
    have hc := h c (by simp)
    have hb := isDigit_iff.1 hc
    rw [digitsValue_snoc]
    by_cases hds : ds = []
    · subst hds
      refine ⟨?_, by simp⟩
      show Nat.toDigits 10 (digitsValue [] * 10 + _) = _
      rw [show digitsValue [] = 0 from rfl, Nat.zero_mul, Nat.zero_add, Nat.toDigits_of_lt_base (by omega), digitChar_sub hc]
      rfl
    · have hh : (ds ++ [c]).head? = ds.head? := by cases ds with
        | nil => exact absurd rfl hds
        | cons => rfl
      have hl : 1 ≤ ds.length := by cases ds with
        | nil => exact absurd rfl hds
        | cons => simp
      have h0' : ds.head? ≠ some '0' := fun h1 => by
        have := h0 (hh.trans h1)
        simp at this; exact hds this
      obtain ⟨i1, i2⟩ := ih (fun x hx => h x (by simp [hx])) hds (fun h1 => absurd h1 h0')
      have hp : 0 < digitsValue ds := by
        by_cases h2 : 1 < ds.length
        · exact i2 h2
        · match ds, hl, h2 with
          | [x], _, _ =>
            have hx := h x (by simp)
            have hx' := isDigit_iff.1 hx
            show 0 < 0 * 10 + (x.toNat - 48)
            have : x.toNat ≠ 48 := fun h3 => h0' (by rw [show x = '0' from Re.char_ext_toNat h3]; rfl)
            omega
          | _ :: _ :: _, _, h2 => simp at h2
      refine ⟨?_, by omega⟩
      show Nat.toDigits 10 _ = _
      rw [Nat.mul_comm, ← Nat.toDigits_append_toDigits (by decide) hp (by omega), Nat.toDigits_of_lt_base (n := c.toNat - 48) (by omega),
        digitChar_sub hc]
      exact congrArg (· ++ [c]) i1

theorem head_showNat {n : Nat} : (showNat n).head? = some '0' → (showNat n).length ≤ 1 := by
  intro h
  induction n using Nat.strongRecOn with
  | ind n ih =>
    by_cases hn : n < 10
    · show (Nat.toDigits 10 n).length ≤ 1
      rw [Nat.toDigits_of_lt_base hn]; simp
    · exfalso
      have he : showNat n = showNat (n / 10) ++ [Nat.digitChar (n % 10)] := Nat.toDigits_of_base_le (by decide) (by omega)
      have hh : (showNat n).head? = (showNat (n / 10)).head? := by
        rw [he]
        cases hd : showNat (n / 10) with
        | nil => exact absurd hd (showNat_ne_nil _)
        | cons => rfl
      have h1 := hh.symm.trans h
      have h2 := ih (n / 10) (by omega) h1
      have : n / 10 = 0 := by
        have h3 := digitsValue_showNat (n / 10)
        cases hd : showNat (n / 10) with
        | nil => exact absurd hd (showNat_ne_nil _)
        | cons x xs =>
          rw [hd] at h1 h2 h3
          simp at h1 h2
          subst h1; subst h2
          rw [← h3]; rfl
      omega

theorem length_showNat {n : Nat} (h : n < 256) : (showNat n).length ≤ 3 :=
  (Nat.length_toDigits_le_iff (by decide) (by decide)).2 (by omega)

theorem readDecimal_iff {s rest : Str} {n : Nat} : readNumber toDigit 10 3 256 false s = some (n, rest) ↔
    n < 256 ∧ s = showNat n ++ rest ∧ NoDigit toDigit rest := by
  rw [readNumber_iff]
  constructor
  · rintro ⟨ds, h1, h2, h3, h4, h5, h6, h7, h8⟩
    have hd : ∀ c ∈ ds, isDigit c = true := fun c hc => isSome_toDigit.1 (h2 c hc)
    rw [valueIn_dec hd] at h7
    refine ⟨h8, ?_, h3⟩
    rw [h1, ← h7, (showNat_digitsValue hd h4 (h6 rfl)).1]
  · rintro ⟨h1, h2, h3⟩
    have hd : ∀ c ∈ showNat n, isDigit c = true := fun c hc => isDigit_of_mem_showNat hc
    exact ⟨showNat n, h2, fun c hc => isSome_toDigit.2 (hd c hc), h3, showNat_ne_nil n, length_showNat h1, fun _ => head_showNat,
      by rw [valueIn_dec hd, digitsValue_showNat], h1⟩

theorem readSeparator_false {α : Type} {sep : Char} {read : Str → Option (α × Str)} {s : Str} {x : α × Str} :
    readSeparator sep false read s = some x ↔ ∃ t, s = sep :: t ∧ read t = some x := by
  unfold readSeparator
  cases s with
  | nil => simp
  | cons c cs =>
    by_cases h : c = sep
    · subst h; simp
    · simp [h]

theorem noDigit_cons {dig : Char → Option Nat} {c : Char} {s : Str} (h : dig c = none) : NoDigit dig (c :: s) := fun x xs hx => by
  cases hx; exact h

theorem readIpv4_iff {s rest : Str} {l : List Nat} : readIpv4 s = some (l, rest) ↔
    Octets l ∧ s = showIpv4 l ++ rest ∧ NoDigit toDigit rest := by
  constructor
  · intro h
    simp only [readIpv4, readOctet, Option.bind_eq_bind, Option.bind_eq_some_iff, Option.pure_def, Option.some.injEq, Prod.mk.injEq, Prod.exists] at h
    obtain ⟨a, s1, ha, b, s2, hb, c, s3, hc, d, s4, hd, rfl, rfl⟩ := h
    obtain ⟨t2, rfl, hb⟩ := readSeparator_false.1 hb
    obtain ⟨t3, rfl, hc⟩ := readSeparator_false.1 hc
    obtain ⟨t4, rfl, hd⟩ := readSeparator_false.1 hd
    obtain ⟨a1, rfl, a3⟩ := readDecimal_iff.1 ha
    obtain ⟨b1, rfl, b3⟩ := readDecimal_iff.1 hb
    obtain ⟨c1, rfl, c3⟩ := readDecimal_iff.1 hc
    obtain ⟨d1, rfl, d3⟩ := readDecimal_iff.1 hd
    refine ⟨⟨rfl, by simp; omega⟩, ?_, d3⟩
    simp [showIpv4, List.intercalate]
  · rintro ⟨⟨h1, h2⟩, rfl, h3⟩
    match l, h1 with
    | [a, b, c, d], _ =>
      simp only [List.mem_cons, List.not_mem_nil, or_false, forall_eq_or_imp, forall_eq] at h2
      have hn : ∀ t, NoDigit toDigit ('.' :: t) := fun t => noDigit_cons (by decide)
      have e : showIpv4 [a, b, c, d] ++ rest = showNat a ++ '.' :: (showNat b ++ '.' :: (showNat c ++ '.' :: (showNat d ++ rest))) := by
        simp [showIpv4, List.intercalate]
      simp only [readIpv4, readOctet, Option.bind_eq_bind, Option.bind_eq_some_iff, Option.pure_def, Option.some.injEq, Prod.mk.injEq, Prod.exists]
      refine ⟨a, _, readDecimal_iff.2 ⟨h2.1, e, hn _⟩, b, _, readSeparator_false.2 ⟨_, rfl, readDecimal_iff.2 ⟨h2.2.1, rfl, hn _⟩⟩,
        c, _, readSeparator_false.2 ⟨_, rfl, readDecimal_iff.2 ⟨h2.2.2.1, rfl, hn _⟩⟩,
        d, _, readSeparator_false.2 ⟨_, rfl, readDecimal_iff.2 ⟨h2.2.2.2, rfl, h3⟩⟩, rfl, rfl⟩

theorem parseWith_iff {α : Type} {read : Str → Option (α × Str)} {s : Str} {x : α} : parseWith read s = some x ↔ read s = some (x, []) := by
  unfold parseWith
  split
  · rename_i y h; simp [h]
  · rename_i h
    constructor
    · intro h'; cases h'
    · intro h'; exact absurd h' (h x)

theorem noDigit_nil {dig : Char → Option Nat} : NoDigit dig [] := fun _ _ h => by cases h

theorem parseIpv4_iff {s : Str} {l : List Nat} : parseIpv4 s = some l ↔ Octets l ∧ Ipv4Text s l := by
  have hr : parseWith readIpv4 s = some l ↔ Octets l ∧ Ipv4Text s l := by
    rw [parseWith_iff, readIpv4_iff, List.append_nil]
    exact ⟨fun h => ⟨h.1, h.2.1⟩, fun h => ⟨h.1, h.2, noDigit_nil⟩⟩
  unfold parseIpv4
  split
  · rename_i hl
    refine ⟨(fun h => by cases h), fun ⟨⟨h1, h2⟩, h3⟩ => ?_⟩
    exfalso
    match l, h1 with
    | [a, b, c, d], _ =>
      simp only [List.mem_cons, List.not_mem_nil, or_false, forall_eq_or_imp, forall_eq] at h2
      have := length_showNat h2.1
      have := length_showNat h2.2.1
      have := length_showNat h2.2.2.1
      have := length_showNat h2.2.2.2
      have e : s.length = (showNat a).length + (showNat b).length + (showNat c).length + (showNat d).length + 3 := by
        rw [show s = _ from h3]; simp [List.intercalate]; omega
      omega
  · exact hr

/-! ### Groups of IPv6 -/

theorem hexText_iff {ds : Str} {n : Nat} : HexText ds n ↔
    ds ≠ [] ∧ (∀ c ∈ ds, (toHexDigit c).isSome = true) ∧ valueIn toHexDigit 16 ds = n := by
  constructor
  · intro h
    induction h with
    | digit hd =>
      have := Props.hexDigit_iff.2 hd
      simp [valueIn, this]
    | snoc h hd ih =>
      have := Props.hexDigit_iff.2 hd
      refine ⟨by simp, ?_, ?_⟩
      · intro c hc
        rcases List.mem_append.1 hc with hc | hc
        · exact ih.2.1 c hc
        · simp at hc; subst hc; simp [this]
      · have h3 := ih.2.2
        unfold valueIn at h3 ⊢
        rw [List.foldl_append, h3]
        simp [this, Nat.mul_comm]
  · rintro ⟨h1, h2, rfl⟩
    induction ds using List.reverseRecOn with
    | nil => exact absurd rfl h1
    | append_singleton ds c ih =>
      obtain ⟨d, hd⟩ := Option.isSome_iff_exists.1 (h2 c (by simp))
      by_cases hds : ds = []
      · subst hds
        simpa [valueIn, hd] using HexText.digit (Props.hexDigit_iff.1 hd)
      · have := HexText.snoc (ih hds fun x hx => h2 x (by simp [hx])) (Props.hexDigit_iff.1 hd)
        rw [Nat.mul_comm] at this
        simpa [valueIn, hd] using this

theorem hexDigit_lt {c : Char} {d : Nat} (h : HexDigit c d) : d < 16 := by
  rcases h with h | h <;> exact (List.getElem?_eq_some_iff.1 h).1

theorem hexText_lt {ds : Str} {n : Nat} (h : HexText ds n) : n < 16 ^ ds.length := by
  induction h with
  | digit hd => simpa using hexDigit_lt hd
  | snoc h hd ih =>
    have := hexDigit_lt hd
    rw [List.length_append, List.length_singleton, Nat.pow_succ]
    omega

theorem hexGroup_lt {ds : Str} {n : Nat} (h : HexGroup ds n) : n < 65536 :=
  Nat.lt_of_lt_of_le (hexText_lt h.2) (Nat.pow_le_pow_right (by decide) h.1)

theorem readHex_iff {s rest : Str} {n : Nat} : readNumber toHexDigit 16 4 65536 true s = some (n, rest) ↔
    ∃ ds, HexGroup ds n ∧ s = ds ++ rest ∧ NoDigit toHexDigit rest := by
  rw [readNumber_iff]
  constructor
  · rintro ⟨ds, h1, h2, h3, h4, h5, -, h7, -⟩
    exact ⟨ds, ⟨h5, hexText_iff.2 ⟨h4, h2, h7⟩⟩, h1, h3⟩
  · rintro ⟨ds, h1, h2, h3⟩
    obtain ⟨i1, i2, i3⟩ := hexText_iff.1 h1.2
    exact ⟨ds, h2, i2, h3, i1, h1.1, (fun h => by cases h), i3, hexGroup_lt h1⟩

/-- The texts with a colon before each. -/
def colons (ps : List Str) : Str := ps.flatMap (':' :: ·)

/-- The colon before all but the first. -/
def lead (first : Bool) : Str := if first then [] else [':']

theorem intercalate_colon (p : Str) (ps : List Str) : List.intercalate [':'] (p :: ps) = p ++ colons ps := by
  induction ps generalizing p with
  | nil => simp [List.intercalate, colons]
  | cons q qs ih =>
    have := ih q
    simp only [List.intercalate, colons, List.intersperse, List.flatten_cons, List.flatMap_cons, List.singleton_append, List.cons_append] at this ⊢
    simp [this]

/-- Groups as they are read: the first without a colon before it if it is the first of all. -/
def run (first : Bool) : List Str → Str
  | [] => []
  | p :: ps => lead first ++ (p ++ colons ps)

theorem run_true (ps : List Str) : run true ps = List.intercalate [':'] ps := by
  cases ps with
  | nil => rfl
  | cons p ps => rw [intercalate_colon]; rfl

theorem run_false (ps : List Str) : run false ps = colons ps := by
  cases ps with
  | nil => rfl
  | cons p ps => simp [run, lead, colons]

theorem run_cons (first : Bool) (p : Str) (ps : List Str) : run first (p :: ps) = lead first ++ (p ++ run false ps) := by
  rw [run_false]; rfl

theorem readSeparator_lead {α : Type} {first : Bool} {read : Str → Option (α × Str)} {s : Str} {x : α × Str} :
    readSeparator ':' first read s = some x ↔ ∃ t, s = lead first ++ t ∧ read t = some x := by
  cases first with
  | false => exact readSeparator_false
  | true => simp [readSeparator, lead]

theorem groupsOfOctets_eq (w x y z : Nat) : groupsOfOctets [w, x, y, z] = [w * 256 + x, y * 256 + z] := rfl

theorem octets_cases {l : List Nat} (h : Octets l) : ∃ w x y z, l = [w, x, y, z] := by
  match l, h.1 with
  | [w, x, y, z], _ => exact ⟨w, x, y, z, rfl⟩

/-- What `read_groups` has read. -/
theorem readGroups_sound {n : Nat} {first : Bool} {s : Str} : (readGroups n first s).1.length ≤ n ∧
    ∃ parts : List (Str × Nat), (∀ p ∈ parts, HexGroup p.1 p.2) ∧
      (((readGroups n first s).2.1 = false ∧ (readGroups n first s).1 = parts.map (·.2) ∧
          s = run first (parts.map (·.1)) ++ (readGroups n first s).2.2) ∨
        ((readGroups n first s).2.1 = true ∧ ∃ w x y z, Octets [w, x, y, z] ∧
          (readGroups n first s).1 = parts.map (·.2) ++ [w * 256 + x, y * 256 + z] ∧
          s = run first (parts.map (·.1) ++ [showIpv4 [w, x, y, z]]) ++ (readGroups n first s).2.2)) := by
  induction n generalizing first s with
  | zero => exact ⟨by simp [readGroups], [], by simp, .inl ⟨rfl, rfl, rfl⟩⟩
  | succ n ih =>
    rw [readGroups]
    split
    · rename_i octets rest h
      split at h
      · rename_i hn
        obtain ⟨t, rfl, h'⟩ := readSeparator_lead.1 h
        obtain ⟨h1, rfl, -⟩ := readIpv4_iff.1 h'
        obtain ⟨w, x, y, z, rfl⟩ := octets_cases h1
        refine ⟨by simp [groupsOfOctets]; omega, [], by simp, .inr ⟨rfl, w, x, y, z, h1, rfl, ?_⟩⟩
        simp [run, colons]
      · cases h
    · split
      · exact ⟨by simp, [], by simp, .inl ⟨rfl, rfl, rfl⟩⟩
      · rename_i g rest h
        obtain ⟨t, rfl, h'⟩ := readSeparator_lead.1 h
        obtain ⟨ds, h1, rfl, -⟩ := readHex_iff.1 h'
        obtain ⟨il, parts, i1, i2⟩ := ih (first := false) (s := rest)
        refine ⟨by simpa using il, (ds, g) :: parts, ?_, ?_⟩
        · intro p hp
          rcases List.mem_cons.1 hp with rfl | hp
          · exact h1
          · exact i1 p hp
        · rcases i2 with ⟨h2, h3, h4⟩ | ⟨h2, w, x, y, z, h3, h4, h5⟩
          · refine .inl ⟨h2, by simp [h3], ?_⟩
            rw [List.map_cons, run_cons]
            simp only [List.append_assoc]
            rw [← h4]
          · refine .inr ⟨h2, w, x, y, z, h3, by simp [h4], ?_⟩
            rw [List.map_cons, List.cons_append, run_cons]
            simp only [List.append_assoc]
            rw [← h5]

/-- What may follow groups. -/
def Stop (rest : Str) : Prop := rest = [] ∨ ∃ r, rest = ':' :: ':' :: r

theorem stop_noDigit {dig : Char → Option Nat} (hd : dig ':' = none) {rest : Str} (h : Stop rest) : NoDigit dig rest := by
  rcases h with rfl | ⟨r, rfl⟩
  · exact noDigit_nil
  · exact noDigit_cons hd

theorem run_noDigit {dig : Char → Option Nat} (hd : dig ':' = none) {ps : List Str} {rest : Str} (h : Stop rest) :
    NoDigit dig (run false ps ++ rest) := by
  cases ps with
  | nil => exact stop_noDigit hd h
  | cons p ps => exact noDigit_cons hd

theorem isSome_hex_of_digit {c : Char} (h : isDigit c = true) : (toHexDigit c).isSome = true := by simp [toHexDigit, h]

/-- No IPv4 address is read where a group is followed by a colon or by nothing. -/
theorem not_readIpv4 {ds t : Str} {n : Nat} (h : HexGroup ds n) (ht : ∀ c cs, t = c :: cs → c = ':') (x : List Nat × Str) :
    readIpv4 (ds ++ t) ≠ some x := by
  intro hx
  obtain ⟨l, rest⟩ := x
  obtain ⟨h1, h2, -⟩ := readIpv4_iff.1 hx
  obtain ⟨w, x, y, z, rfl⟩ := octets_cases h1
  have e : showIpv4 [w, x, y, z] ++ rest = showNat w ++ ('.' :: (showNat x ++ '.' :: (showNat y ++ '.' :: (showNat z ++ rest)))) := by
    simp [showIpv4, List.intercalate]
  rw [e] at h2
  have s1 := span_append (p := fun c => (toHexDigit c).isSome) (a := ds) (b := t) (hexText_iff.1 h.2).2.1
    (fun c cs hc => by rw [ht c cs hc]; decide)
  have s2 := span_append (p := fun c => (toHexDigit c).isSome) (a := showNat w)
    (b := '.' :: (showNat x ++ '.' :: (showNat y ++ '.' :: (showNat z ++ rest))))
    (fun c hc => isSome_hex_of_digit (isDigit_of_mem_showNat hc)) (fun c cs hc => by cases hc; decide)
  rw [h2] at s1
  have := s1.2.symm.trans s2.2
  exact absurd (ht _ _ this) (by decide)

theorem run_colon {ps : List Str} {rest : Str} (h : Stop rest) : ∀ c cs, run false ps ++ rest = c :: cs → c = ':' := by
  intro c cs hc
  cases ps with
  | nil =>
    rcases h with rfl | ⟨r, rfl⟩
    · cases hc
    · cases hc; rfl
  | cons p ps => cases hc; rfl

theorem stop_not_read {α : Type} {first : Bool} {read : Str → Option (α × Str)} {rest : Str} (h : Stop rest)
    (h0 : read [] = none) (h1 : ∀ t, read (':' :: t) = none) : readSeparator ':' first read rest = none := by
  cases hr : readSeparator ':' first read rest with
  | none => rfl
  | some x =>
    obtain ⟨t, ht, hx⟩ := readSeparator_lead.1 hr
    exfalso
    rcases h with rfl | ⟨r, rfl⟩
    · cases first with
      | true => cases ht; rw [h0] at hx; cases hx
      | false => cases ht
    · cases first with
      | true => simp [lead] at ht; subst ht; rw [h1] at hx; cases hx
      | false => cases ht; rw [h1] at hx; cases hx

theorem readIpv4_none_of_head {s : Str} (h : ∀ c cs, s = c :: cs → isDigit c = false) : readIpv4 s = none := by
  cases hr : readIpv4 s with
  | none => rfl
  | some x =>
    obtain ⟨l, rest⟩ := x
    obtain ⟨h1, h2, -⟩ := readIpv4_iff.1 hr
    obtain ⟨w, x, y, z, rfl⟩ := octets_cases h1
    have e : showIpv4 [w, x, y, z] ++ rest = showNat w ++ ('.' :: (showNat x ++ '.' :: (showNat y ++ '.' :: (showNat z ++ rest)))) := by
      simp [showIpv4, List.intercalate]
    rw [e] at h2
    cases hw : showNat w with
    | nil => exact absurd hw (showNat_ne_nil w)
    | cons c cs =>
      rw [hw] at h2
      have := isDigit_of_mem_showNat (n := w) (c := c) (by rw [hw]; simp)
      rw [h c _ h2] at this
      cases this

theorem readHex_none_of_head {s : Str} (h : ∀ c cs, s = c :: cs → toHexDigit c = none) :
    readNumber toHexDigit 16 4 65536 true s = none := by
  cases hr : readNumber toHexDigit 16 4 65536 true s with
  | none => rfl
  | some x =>
    obtain ⟨n, rest⟩ := x
    obtain ⟨ds, h1, rfl, -⟩ := readHex_iff.1 hr
    obtain ⟨i1, i2, -⟩ := hexText_iff.1 h1.2
    cases ds with
    | nil => exact absurd rfl i1
    | cons c cs =>
      have := i2 c (by simp)
      rw [h c _ rfl] at this
      cases this

theorem stop_readGroups {n : Nat} {first : Bool} {rest : Str} (h : Stop rest) : readGroups n first rest = ([], false, rest) := by
  cases n with
  | zero => rfl
  | succ n =>
    have h4 : readSeparator ':' first readIpv4 rest = none := stop_not_read h
      (readIpv4_none_of_head fun _ _ h => by cases h) fun t => readIpv4_none_of_head fun c cs h => by cases h; decide
    have hh : readSeparator ':' first (readNumber toHexDigit 16 4 65536 true) rest = none := stop_not_read h
      (readHex_none_of_head fun _ _ h => by cases h) fun t => readHex_none_of_head fun c cs h => by cases h; decide
    rw [readGroups, h4, hh]
    simp

theorem readSeparator_eq_none {α : Type} {first : Bool} {read : Str → Option (α × Str)} {t : Str} (h : ∀ x, read t ≠ some x) :
    readSeparator ':' first read (lead first ++ t) = none := by
  cases hr : readSeparator ':' first read (lead first ++ t) with
  | none => rfl
  | some x =>
    obtain ⟨t', ht, hx⟩ := readSeparator_lead.1 hr
    cases List.append_cancel_left ht
    exact absurd hx (h x)

/-- One group is read. -/
theorem readGroups_group {n : Nat} {first : Bool} {ds : Str} {g : Nat} {ps : List Str} {rest : Str} (h : HexGroup ds g)
    (hs : Stop rest) : readGroups (n + 1) first (lead first ++ (ds ++ (run false ps ++ rest))) =
      (g :: (readGroups n false (run false ps ++ rest)).1, (readGroups n false (run false ps ++ rest)).2.1,
        (readGroups n false (run false ps ++ rest)).2.2) := by
  have h4 : readSeparator ':' first readIpv4 (lead first ++ (ds ++ (run false ps ++ rest))) = none :=
    readSeparator_eq_none fun x => not_readIpv4 h (run_colon hs) x
  have hh : readSeparator ':' first (readNumber toHexDigit 16 4 65536 true) (lead first ++ (ds ++ (run false ps ++ rest))) =
      some (g, run false ps ++ rest) :=
    readSeparator_lead.2 ⟨_, rfl, readHex_iff.2 ⟨ds, h, rfl, run_noDigit (by decide) hs⟩⟩
  rw [readGroups, h4, hh]
  simp

theorem readGroups_complete {parts : List (Str × Nat)} {n : Nat} {first : Bool} {rest : Str} (hp : ∀ p ∈ parts, HexGroup p.1 p.2)
    (hn : parts.length ≤ n) (hs : Stop rest) :
    readGroups n first (run first (parts.map (·.1)) ++ rest) = (parts.map (·.2), false, rest) := by
  induction parts generalizing n first with
  | nil => exact stop_readGroups hs
  | cons p ps ih =>
    obtain ⟨m, rfl⟩ : ∃ m, n = m + 1 := ⟨n - 1, by simp at hn; omega⟩
    have := ih (n := m) (first := false) (fun q hq => hp q (by simp [hq])) (by simpa using hn)
    rw [List.map_cons, run_cons, List.append_assoc, List.append_assoc, readGroups_group (hp p (by simp)) hs, this]
    rfl

theorem readGroups_complete_v4 {parts : List (Str × Nat)} {n : Nat} {first : Bool} {rest : Str} {w x y z : Nat}
    (hp : ∀ p ∈ parts, HexGroup p.1 p.2) (ho : Octets [w, x, y, z]) (hn : parts.length + 2 ≤ n) (hs : Stop rest) :
    readGroups n first (run first (parts.map (·.1) ++ [showIpv4 [w, x, y, z]]) ++ rest) =
      (parts.map (·.2) ++ [w * 256 + x, y * 256 + z], true, rest) := by
  induction parts generalizing n first with
  | nil =>
    obtain ⟨m, rfl⟩ : ∃ m, n = m + 2 := ⟨n - 2, by simp at hn; omega⟩
    have h4 : readSeparator ':' first readIpv4 (lead first ++ (showIpv4 [w, x, y, z] ++ rest)) = some ([w, x, y, z], rest) :=
      readSeparator_lead.2 ⟨_, rfl, readIpv4_iff.2 ⟨ho, rfl, stop_noDigit (by decide) hs⟩⟩
    have e : run first (([] : List (Str × Nat)).map (·.1) ++ [showIpv4 [w, x, y, z]]) ++ rest =
        lead first ++ (showIpv4 [w, x, y, z] ++ rest) := by simp [run, colons]
    rw [e, readGroups, if_pos (by omega), h4]
    rfl
  | cons p ps ih =>
    obtain ⟨m, rfl⟩ : ∃ m, n = m + 1 := ⟨n - 1, by omega⟩
    have := ih (n := m) (first := false) (fun q hq => hp q (by simp [hq])) (by simp at hn; omega)
    rw [List.map_cons, List.cons_append, run_cons, List.append_assoc, List.append_assoc, readGroups_group (hp p (by simp)) hs, this]
    rfl

theorem endText_read {t : Str} {a : List Nat} {n : Nat} (h : EndText t a) (hn : a.length ≤ n) :
    (readGroups n true t).1 = a ∧ (readGroups n true t).2.2 = [] := by
  rcases h with ⟨parts, hp, rfl, rfl⟩ | ⟨parts, t4, w, x, y, z, hp, ho, h4, rfl, rfl⟩
  · have := readGroups_complete (first := true) (rest := []) hp (by simpa using hn) (.inl rfl)
    rw [List.append_nil, run_true] at this
    rw [this]; exact ⟨rfl, rfl⟩
  · have := readGroups_complete_v4 (first := true) (rest := []) hp ho (by simpa using hn) (.inl rfl)
    rw [List.append_nil, run_true, ← show t4 = showIpv4 [w, x, y, z] from h4] at this
    rw [this]; exact ⟨rfl, rfl⟩

theorem endText_of_read {t : Str} {n : Nat} (h : (readGroups n true t).2.2 = []) : EndText t (readGroups n true t).1 := by
  obtain ⟨-, parts, hp, ⟨-, h2, h3⟩ | ⟨-, w, x, y, z, ho, h2, h3⟩⟩ := readGroups_sound (n := n) (first := true) (s := t)
  · rw [h, List.append_nil, run_true] at h3
    exact .inl ⟨parts, hp, h3, h2⟩
  · rw [h, List.append_nil, run_true] at h3
    exact .inr ⟨parts, _, w, x, y, z, hp, ho, rfl, h3, h2⟩

theorem parseIpv6_iff {s : Str} {a : List Nat} : parseIpv6 s = some a ↔ Ipv6Text s a := by
  unfold parseIpv6
  rw [parseWith_iff]
  constructor
  · intro h
    unfold readIpv6 at h
    simp only at h
    split at h
    · rename_i hl
      simp only [Option.some.injEq, Prod.mk.injEq] at h
      have := endText_of_read h.2
      rw [h.1] at this hl
      exact ⟨hl, .inl this⟩
    split at h
    · cases h
    split at h
    · rename_i h8 hv _ t2 ht
      simp only [Option.some.injEq, Prod.mk.injEq] at h
      have h2 := endText_of_read h.2
      obtain ⟨hl, parts, hp, ⟨-, h3, h4⟩ | ⟨h3, -⟩⟩ := readGroups_sound (n := 8) (first := true) (s := s)
      · have hl2 := (readGroups_sound (n := 8 - ((readGroups 8 true s).1.length + 1)) (first := true) (s := t2)).1
        rw [ht, run_true] at h4
        refine ⟨?_, .inr ⟨_, (readGroups 8 true s).1, _, t2, _, ⟨parts, hp, rfl, h3⟩, h2, ?_, ?_, h.1.symm⟩⟩
        · rw [← h.1, List.length_append, List.length_append, List.length_replicate]; omega
        · omega
        · rw [h4]; simp
      · exact absurd h3 hv
    · cases h
  · rintro ⟨h8, h | ⟨t1, l, n, t2, r, ⟨parts, hp, h1, h1'⟩, h2, hn, rfl, rfl⟩⟩
    · have := endText_read (n := 8) h (by omega)
      unfold readIpv6
      simp only [this.1, this.2]
      rw [if_pos h8]
    · simp only [List.length_append, List.length_replicate] at h8
      have hr := readGroups_complete (first := true) (n := 8) (rest := ':' :: ':' :: t2) hp
        (by rw [h1'] at h8; simp at h8; omega) (.inr ⟨_, rfl⟩)
      rw [run_true, ← h1, ← h1'] at hr
      have e : t1 ++ "::".toList ++ t2 = t1 ++ ':' :: ':' :: t2 := by simp
      have := endText_read (n := 8 - (l.length + 1)) h2 (by omega)
      unfold readIpv6
      rw [e, hr]
      simp only [this.1, this.2]
      rw [if_neg (by omega), if_neg (by decide)]
      rw [show 8 - l.length - r.length = n by omega]

end Proofs
