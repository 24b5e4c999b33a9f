import Verif.Model.Addresses
import Verif.Props.Structs
import Verif.Props.Ports
import Verif.Props.ListOrMap

/- C102: IP addresses. -/

namespace Props
open Rust Rust.Net Compose Compose.Derive Compose.Codecs Spec Proofs

/-- C102: an IPv4 address is read exactly from its dotted decimal text without leading zeros. -/
theorem C102_ipv4 (s : Str) (a : Ipv4) : ipv4Text.parse s = some a ↔ Ipv4Text s a.1 := by
  have h : ipv4Text.parse s = some a ↔ parseIpv4 s = some a.1 := by
    show (match h : parseIpv4 s with
      | some a => some (⟨a, (Proofs.parseIpv4_iff.1 h).1⟩ : Ipv4)
      | none => none) = some a ↔ _
    split
    · rename_i b h'
      constructor
      · intro e; exact h'.trans (congrArg some (congrArg Subtype.val (Option.some.inj e)))
      · intro e; exact congrArg some (Subtype.ext (Option.some.inj (h'.symm.trans e)))
    · rename_i h'
      constructor
      · intro e; cases e
      · intro e; cases h'.symm.trans e
  rw [h, parseIpv4_iff]
  exact ⟨fun h => h.2, fun h => ⟨a.2, h⟩⟩

/-- C102: an IPv6 address is read exactly from the texts of RFC 4291. -/
theorem C102_ipv6 (s : Str) (a : Ipv6) : ipv6Text.parse s = some a ↔ Ipv6Text s a.1 := by
  have h : ipv6Text.parse s = some a ↔ parseIpv6 s = some a.1 := by
    show (match h : parseIpv6 s with
      | some a => some (⟨a, Proofs.ipv6Text_groups (Proofs.parseIpv6_iff.1 h)⟩ : Ipv6)
      | none => none) = some a ↔ _
    split
    · rename_i b h'
      constructor
      · intro e; exact h'.trans (congrArg some (congrArg Subtype.val (Option.some.inj e)))
      · intro e; exact congrArg some (Subtype.ext (Option.some.inj (h'.symm.trans e)))
    · rename_i h'
      constructor
      · intro e; cases e
      · intro e; cases h'.symm.trans e
  rw [h, parseIpv6_iff]

/-- The texts of an address of either kind. -/
def IpTextOf (s : Str) : Ip → Prop
  | .v4 a => Ipv4Text s a.1
  | .v6 a => Ipv6Text s a.1

/-- C102: where both kinds are allowed, an address is read exactly from the texts of its kind. -/
theorem C102_ip (s : Str) (a : Ip) : ipText.parse s = some a ↔ IpTextOf s a := by
  show (match h : parseIp s with
      | some (.inl a) => some (.v4 ⟨a, (Proofs.parseIp_v4.1 h).1⟩)
      | some (.inr a) => some (.v6 ⟨a, Proofs.ipv6Text_groups (Proofs.parseIp_v6.1 h)⟩)
      | none => none) = some a ↔ _
  cases a with
  | v4 a =>
    have h4 := parseIp_v4 (s := s) (a := a.1)
    have : IpTextOf s (.v4 a) ↔ parseIp s = some (.inl a.1) := by rw [h4]; exact ⟨fun h => ⟨a.2, h⟩, fun h => h.2⟩
    rw [this]
    split
    · rename_i b h
      constructor
      · intro e; cases e; exact h
      · intro h'; exact congrArg (fun x => some (Ip.v4 x)) (Subtype.ext (Sum.inl.inj (Option.some.inj (h.symm.trans h'))))
    · rename_i b h
      constructor
      · intro e; cases e
      · intro e; cases h.symm.trans e
    · rename_i h
      constructor
      · intro e; cases e
      · intro e; cases h.symm.trans e
  | v6 a =>
    have : IpTextOf s (.v6 a) ↔ parseIp s = some (.inr a.1) := parseIp_v6.symm
    rw [this]
    split
    · rename_i b h
      constructor
      · intro e; cases e
      · intro e; cases h.symm.trans e
    · rename_i b h
      constructor
      · intro e; cases e; exact h
      · intro h'; exact congrArg (fun x => some (Ip.v6 x)) (Subtype.ext (Sum.inr.inj (Option.some.inj (h.symm.trans h'))))
    · rename_i h
      constructor
      · intro e; cases e
      · intro e; cases h.symm.trans e

/-- C102: the text written is the one that RFC 5952 recommends. -/
theorem C102_written (a : Ip) : match a with
    | .v4 a => Ipv4Text (ipText.show (.v4 a)) a.1 ∧ ipv4Text.show a = ipText.show (.v4 a)
    | .v6 a => Ipv6Canonical (ipText.show (.v6 a)) a.1 ∧ ipv6Text.show a = ipText.show (.v6 a) := by
  cases a with
  | v4 a => exact ⟨rfl, rfl⟩
  | v6 a => exact ⟨showIpv6_canonical a.2, rfl⟩

/-- C102: what is written is read as the same address. -/
theorem C102_round_trip : ReadsBack ipText ∧ ReadsBack ipv4Text ∧ ReadsBack ipv6Text := by
  refine ⟨fun a => (C102_ip _ a).2 ?_, fun a => (C102_ipv4 _ a).2 rfl,
    fun a => (C102_ipv6 _ a).2 (ipv6Text_of_canonical a.2 (showIpv6_canonical a.2))⟩
  cases a with
  | v4 a => exact rfl
  | v6 a => exact ipv6Text_of_canonical a.2 (showIpv6_canonical a.2)

/-! ### In the places where the library reads addresses -/

theorem hexText_digits {t : Str} {n : Nat} (h : HexText t n) : ∀ c ∈ t, (toHexDigit c).isSome = true := (hexText_iff.1 h).2.1

theorem mem_intercalate {sep : Char} {ps : List Str} {c : Char} (h : c ∈ List.intercalate [sep] ps) :
    c = sep ∨ ∃ p ∈ ps, c ∈ p := by
  induction ps with
  | nil => simp [List.intercalate] at h
  | cons p ps ih =>
    cases ps with
    | nil => exact .inr ⟨p, by simp, by simpa [List.intercalate] using h⟩
    | cons q qs =>
      have e : List.intercalate [sep] (p :: q :: qs) = p ++ sep :: List.intercalate [sep] (q :: qs) := by
        simp [List.intercalate]
      rw [e] at h
      rcases List.mem_append.1 h with h | h
      · exact .inr ⟨p, by simp, h⟩
      · rcases List.mem_cons.1 h with h | h
        · exact .inl h
        · rcases ih h with h | ⟨p', h1, h2⟩
          · exact .inl h
          · exact .inr ⟨p', by simp only [List.mem_cons] at h1 ⊢; exact .inr h1, h2⟩

/-- The characters of an address. -/
def AddressChar (c : Char) : Prop := c = '.' ∨ c = ':' ∨ (toHexDigit c).isSome = true

theorem ipv4_chars {t : Str} {a : List Nat} (h : Ipv4Text t a) : ∀ c ∈ t, AddressChar c := by
  intro c hc
  rw [show t = _ from h] at hc
  rcases mem_intercalate hc with h | ⟨p, hp, h⟩
  · exact .inl h
  · obtain ⟨n, -, rfl⟩ := List.mem_map.1 hp
    exact .inr (.inr (isSome_hex_of_digit (isDigit_of_mem_showNat h)))

theorem groupsText_chars {t : Str} {a : List Nat} (h : GroupsText t a) : ∀ c ∈ t, AddressChar c := by
  obtain ⟨parts, hp, rfl, -⟩ := h
  intro c hc
  rcases mem_intercalate hc with h | ⟨p, hp', h⟩
  · exact .inr (.inl h)
  · obtain ⟨q, hq, rfl⟩ := List.mem_map.1 hp'
    exact .inr (.inr (hexText_digits (hp q hq).2 c h))

theorem endText_chars {t : Str} {a : List Nat} (h : EndText t a) : ∀ c ∈ t, AddressChar c := by
  rcases h with h | ⟨parts, t4, w, x, y, z, hp, -, h4, rfl, -⟩
  · exact groupsText_chars h
  · intro c hc
    rcases mem_intercalate hc with h | ⟨p, hp', h⟩
    · exact .inr (.inl h)
    · rcases List.mem_append.1 hp' with hp' | hp'
      · obtain ⟨q, hq, rfl⟩ := List.mem_map.1 hp'
        exact .inr (.inr (hexText_digits (hp q hq).2 c h))
      · rw [List.mem_singleton.1 hp'] at h
        exact ipv4_chars h4 c h

theorem ipv6_chars {t : Str} {a : List Nat} (h : Ipv6Text t a) : ∀ c ∈ t, AddressChar c := by
  rcases h.2 with h | ⟨t1, l, n, t2, r, h1, h2, -, rfl, -⟩
  · exact endText_chars h
  · intro c hc
    rcases List.mem_append.1 hc with hc | hc
    · rcases List.mem_append.1 hc with hc | hc
      · exact groupsText_chars h1 c hc
      · exact .inr (.inl (by simpa using hc))
    · exact endText_chars h2 c hc

theorem ip_chars {t : Str} {a : Ip} (h : IpTextOf t a) : ∀ c ∈ t, AddressChar c := by
  cases a with
  | v4 a => exact ipv4_chars h
  | v6 a => exact ipv6_chars h

theorem ip_shown (a : Ip) : IpTextOf (ipText.show a) a := (C102_ip _ a).1 (C102_round_trip.1 a)

theorem not_addressChar_slash : ¬ AddressChar '/' := by rintro (h | h | h) <;> revert h <;> decide
theorem not_addressChar_bracket : ¬ AddressChar '[' := by rintro (h | h | h) <;> revert h <;> decide

/-- C102: what is assumed of addresses in the theorems about structs holds for the addresses of the standard library. -/
theorem C102_env (E : Env) (hn : ReadsBack E.ipNet) (ho : ∀ m, (E.order m).Perm m) : EnvOk (addressEnv E) where
  ip := C102_round_trip.1
  ip4 := C102_round_trip.2.1
  ip6 := C102_round_trip.2.2
  ipNet := hn
  no_slash a h := not_addressChar_slash (ip_chars (ip_shown a) _ h)
  no_bracket a h := not_addressChar_bracket (ip_chars (ip_shown a) _ h)
  order := ho

/-- C102: a short port with any address reads back from its text. -/
theorem C102_short_port (p : ShortPort Ip) (h : ShortPortOk p) :
    ShortPort.fromStr (fun s => (ipText.parse s).elim (.error ()) .ok) (p.toStr ipText.show) = .ok p :=
  C17_short_port_round_trip _ _
    { round_trip := fun a => by simp only [C102_round_trip.1 a]; rfl
      no_slash := fun a h => not_addressChar_slash (ip_chars (ip_shown a) _ h)
      no_bracket := fun a h => not_addressChar_bracket (ip_chars (ip_shown a) _ h) } p h

example : Ipv4Text "10.0.0.1".toList [10, 0, 0, 1] := (C102_ipv4 _ ⟨[10, 0, 0, 1], rfl, by decide⟩).1 rfl
example : Ipv6Text "2001:0DB8:0::0:1".toList [0x2001, 0xdb8, 0, 0, 0, 0, 0, 1] :=
  (C102_ipv6 _ ⟨[0x2001, 0xdb8, 0, 0, 0, 0, 0, 1], rfl, by decide⟩).1 rfl
/-- Both kinds of address are read back. -/
example : ipText.parse (ipText.show (.v4 ⟨[10, 0, 0, 1], rfl, by decide⟩)) = some (.v4 ⟨[10, 0, 0, 1], rfl, by decide⟩) :=
  C102_round_trip.1 _

theorem ipv6_colon {t : Str} {a : List Nat} (h : Ipv6Text t a) : ':' ∈ t := by
  obtain ⟨h8, h⟩ := h
  have two : ∀ ps : List Str, 2 ≤ ps.length → ':' ∈ List.intercalate [':'] ps := by
    intro ps hl
    match ps, hl with
    | p :: q :: qs, _ => rw [intercalate_colon]; simp [colons]
  rcases h with (⟨parts, hp, rfl, rfl⟩ | ⟨parts, t4, w, x, y, z, hp, -, -, rfl, rfl⟩) | ⟨t1, l, n, t2, r, -, -, -, rfl, -⟩
  · simp at h8; exact two _ (by simp; omega)
  · simp at h8; exact two _ (by simp; omega)
  · simp

theorem ipv4_dots {t : Str} {a : List Nat} (ha : Octets a) (h : Ipv4Text t a) : 2 ≤ t.count '.' := by
  obtain ⟨w, x, y, z, rfl⟩ := octets_cases ha
  rw [show t = _ from h]
  have e : List.intercalate ['.'] ([w, x, y, z].map showNat) =
      showNat w ++ '.' :: (showNat x ++ '.' :: (showNat y ++ '.' :: showNat z)) := by simp [List.intercalate]
  rw [e]
  simp only [List.count_append, List.count_cons_self]
  omega

/-- C102: what C63 assumes of addresses holds: hosts with any addresses may be written in all three ways.  (`hf`: a decimal
number has no colons, no brackets and at most one dot.) -/
theorem C102_extra_hosts (ft : FloatText) (hf : ∀ s x, ft.parse s = some x → ':' ∉ s ∧ '[' ∉ s ∧ s.count '.' ≤ 1)
    (es : List (Str × Ip)) (hd : (es.map (·.1)).Nodup) (hh : ∀ e ∈ es, Hostname e.1) (brackets : Ip → Bool)
    (separator : Str → Char) (hs : ∀ host, separator host = '=' ∨ separator host = ':') :
    let text := fun a => if brackets a then "[".toList ++ ipText.show a ++ "]".toList else ipText.show a
    extraHosts ft ipText.parse (.list (es.map fun e => e.1 ++ separator e.1 :: text e.2)) = .ok es ∧
      extraHosts ft ipText.parse (.map (es.map fun e => (e.1, some (.string (text e.2))))) = .ok es := by
  intro text
  have facts : AddressFacts ft ipText.parse := ⟨hf, fun s a h => by
    have := (C102_ip s a).1 h
    cases a with
    | v4 a => exact .inr (ipv4_dots a.2 this)
    | v6 a => exact .inl (ipv6_colon this)⟩
  have key := C63_forms_agree ft ipText.parse facts (es.map fun e => (e.1, text e.2, e.2)) (by simpa [Function.comp_def] using hd)
    (by
      intro host addr a hm
      obtain ⟨e, he, h1⟩ := List.mem_map.1 hm
      cases h1
      refine ⟨hh e he, ?_⟩
      show HostAddress _ (if _ then _ else _) _
      split
      · exact .brackets (C102_round_trip.1 _)
      · refine .plain ?_ (C102_round_trip.1 _)
        rintro ⟨t, ht⟩
        refine not_addressChar_bracket (ip_chars (ip_shown e.2) _ ?_)
        rw [ht]; simp)
    separator hs
  have e : es.map (fun x => (x.1, x.2)) = es := List.map_id es
  simp only [List.map_map, Function.comp_def] at key
  exact ⟨key.1.trans (congrArg Except.ok e), key.2.trans (congrArg Except.ok e)⟩

/-! ### Examples -/

example : parseIp "10.0.0.1".toList = some (.inl [10, 0, 0, 1]) := by decide
example : parseIp "10.0.0.01".toList = none := by decide
example : parseIp "10.0.0.256".toList = none := by decide
example : parseIp "10.0.1".toList = none := by decide
example : parseIp "::1".toList = some (.inr [0, 0, 0, 0, 0, 0, 0, 1]) := by decide
example : parseIp "2001:DB8::0aB:0:1".toList = some (.inr [0x2001, 0xdb8, 0, 0, 0, 0xab, 0, 1]) := by decide
example : parseIp "::ffff:1.2.3.4".toList = some (.inr [0, 0, 0, 0, 0, 0xffff, 0x102, 0x304]) := by decide
example : parseIp "1.2.3.4::".toList = none := by decide
example : parseIp "1::2::3".toList = none := by decide
example : parseIp "1:2:3:4:5:6:7::".toList = some (.inr [1, 2, 3, 4, 5, 6, 7, 0]) := by decide
example : parseIp "1:2:3:4:5:6:7:8::".toList = none := by decide
example : showIp (.inr [0x2001, 0xdb8, 0, 0, 1, 0, 0, 1]) = "2001:db8::1:0:0:1".toList := by decide
example : showIp (.inr [1, 0, 2, 3, 4, 5, 6, 7]) = "1:0:2:3:4:5:6:7".toList := by decide
example : showIp (.inr [0, 0, 0, 0, 0, 0, 0, 0]) = "::".toList := by decide

/-- `2001:db8::1`. -/
def sampleIp : Ip := .v6 ⟨[0x2001, 0xdb8, 0, 0, 0, 0, 0, 1], rfl, by decide⟩

example : IpTextOf "2001:0DB8:0::0:1".toList sampleIp := (C102_ip _ _).1 rfl

example : Ipv6Canonical "2001:db8::1".toList [0x2001, 0xdb8, 0, 0, 0, 0, 0, 1] := (C102_written sampleIp).1

/-- `[2001:db8::1]:8080:80/tcp`. -/
example : ShortPort.fromStr (fun s => (ipText.parse s).elim (.error ()) .ok) "[2001:db8::1]:8080:80".toList =
    .ok ⟨some sampleIp, ⟨some ⟨8080, none⟩, ⟨80, none⟩⟩, none⟩ := by rfl

end Props
