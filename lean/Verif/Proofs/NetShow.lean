import Verif.Proofs.Net

/- Writing IPv6 addresses. -/

namespace Proofs
open Rust Rust.Net Spec

theorem zeroRun_lt {a : List Nat} {i n : Nat} (h : ZeroRun a i n) (hn : 0 < n) : i + n ≤ a.length := by
  have := h (i + n - 1) (by omega) (by omega)
  have := (List.getElem?_eq_some_iff.1 this).1
  omega

theorem zeroSpan_spec {all pre gs : List Nat} {longest current : Span} (ha : all = pre ++ gs)
    (h1 : ZeroRun all longest.start longest.len) (h1' : 0 < longest.len → longest.start + longest.len ≤ pre.length)
    (h2 : ZeroRun all current.start current.len) (h2' : 0 < current.len → current.start + current.len = pre.length)
    (h3 : ∀ j m, ZeroRun all j m → j + m ≤ pre.length → 0 < m → m ≤ longest.len ∧ (m = longest.len → longest.start ≤ j))
    (h4 : ∀ j m, ZeroRun all j m → j + m = pre.length → m ≤ current.len) :
    let z := zeroSpan pre.length longest current gs
    ZeroRun all z.start z.len ∧ ∀ j m, ZeroRun all j m → 0 < m → m ≤ z.len ∧ (m = z.len → z.start ≤ j) := by
  induction gs generalizing pre longest current with
  | nil =>
    refine ⟨h1, fun j m hr hm => h3 j m hr ?_ hm⟩
    have := zeroRun_lt hr hm
    rw [ha, List.append_nil] at this
    exact this
  | cons g gs ih =>
    have hg : all[pre.length]? = some g := by rw [ha]; simp
    have ha' : all = (pre ++ [g]) ++ gs := by rw [ha]; simp
    have hl : (pre ++ [g]).length = pre.length + 1 := by simp
    rw [zeroSpan]
    split
    · rename_i h0
      subst h0
      obtain ⟨c, hc⟩ : ∃ c : Span, { start := if current.len = 0 then pre.length else current.start, len := current.len + 1 } = c :=
        ⟨_, rfl⟩
      suffices goal : ZeroRun all (zeroSpan (pre.length + 1) (if longest.len < c.len then c else longest) c gs).start
            (zeroSpan (pre.length + 1) (if longest.len < c.len then c else longest) c gs).len ∧
          ∀ j m, ZeroRun all j m → 0 < m →
            m ≤ (zeroSpan (pre.length + 1) (if longest.len < c.len then c else longest) c gs).len ∧
            (m = (zeroSpan (pre.length + 1) (if longest.len < c.len then c else longest) c gs).len →
              (zeroSpan (pre.length + 1) (if longest.len < c.len then c else longest) c gs).start ≤ j) by
        rw [← hc] at goal; exact goal
      have cl : c.len = current.len + 1 := by rw [← hc]
      have cs : c.start + c.len = pre.length + 1 := by
        rw [← hc]; simp only; split
        · omega
        · have := h2' (by omega); omega
      have cz : ZeroRun all c.start c.len := by
        intro j hj1 hj2
        by_cases hj : j = pre.length
        · subst hj; exact hg
        · refine h2 j ?_ ?_
          · by_cases h0 : current.len = 0
            · omega
            · have := h2' (by omega); omega
          · by_cases h0 : current.len = 0
            · omega
            · have := h2' (by omega); omega
      have c4 : ∀ j m, ZeroRun all j m → j + m = pre.length + 1 → m ≤ c.len := by
        intro j m hr hjm
        by_cases hm : m = 0
        · omega
        · have := h4 j (m - 1) (fun k hk1 hk2 => hr k hk1 (by omega)) (by omega)
          omega
      have key := ih (pre := pre ++ [0]) (longest := if longest.len < c.len then c else longest) (current := c) ha' ?_ ?_ cz
        (fun _ => by rw [hl]; exact cs) ?_ (by rw [hl]; exact c4)
      · rw [hl] at key; exact key
      · split
        · exact cz
        · exact h1
      · rw [hl]
        split
        · intro _; omega
        · intro h; have := h1' h; omega
      · rw [hl]
        intro j m hr hjm hm
        by_cases hj : j + m = pre.length + 1
        · have hmc := c4 j m hr hj
          split
          · exact ⟨hmc, fun _ => by omega⟩
          · refine ⟨by omega, fun he => ?_⟩
            have := h1' (by omega)
            omega
        · obtain ⟨i1, i2⟩ := h3 j m hr (by omega) hm
          split
          · exact ⟨by omega, fun _ => by omega⟩
          · exact ⟨i1, i2⟩
    · rename_i h0
      have no : ∀ j m, ZeroRun all j m → j + m = pre.length + 1 → m = 0 := by
        intro j m hr hjm
        refine Classical.byContradiction fun hm => h0 ?_
        have := hr pre.length (by omega) (by omega)
        rw [hg] at this
        exact Option.some.inj this
      have key := ih (pre := pre ++ [g]) (longest := longest) (current := {}) ha' h1
        (fun h => by rw [hl]; have := h1' h; omega) (fun j hj1 hj2 => absurd (show j < 0 from hj2) (Nat.not_lt_zero j)) (fun h => absurd h (by simp))
        ?_ (fun j m hr hjm => by rw [hl] at hjm; exact Nat.le_of_eq (no j m hr hjm))
      · rw [hl] at key; exact key
      · intro j m hr hjm hm
        rw [hl] at hjm
        refine h3 j m hr ?_ hm
        by_cases hj : j + m = pre.length + 1
        · have := no j m hr hj; omega
        · omega

/-- What the loop finds is the longest run of zeros, and the first of this length. -/
theorem zeroSpan_longest (a : List Nat) : ZeroRun a (zeroSpan 0 {} {} a).start (zeroSpan 0 {} {} a).len ∧
    ∀ j m, ZeroRun a j m → 0 < m → m ≤ (zeroSpan 0 {} {} a).len ∧ (m = (zeroSpan 0 {} {} a).len → (zeroSpan 0 {} {} a).start ≤ j) := by
  have e : ZeroRun a 0 0 := fun j h1 h2 => by omega
  exact zeroSpan_spec (pre := []) (all := a) (gs := a) (longest := {}) (current := {}) rfl e (fun h => absurd h (by simp)) e
    (fun h => absurd h (by simp)) (fun j m _ h hm => by simp at h; omega) (fun j m _ h => by simp at h; omega)

theorem toIpv4Mapped_some {a v : List Nat} (h : toIpv4Mapped a = some v) :
    ∃ x y, a = [0, 0, 0, 0, 0, 65535, x, y] ∧ v = [x / 256, x % 256, y / 256, y % 256] := by
  unfold toIpv4Mapped at h
  split at h
  · rename_i x y
    exact ⟨x, y, rfl, (Option.some.inj h).symm⟩
  · cases h

theorem showIpv6_canonical {a : List Nat} (h : Groups a) : Ipv6Canonical (showIpv6 a) a := by
  unfold showIpv6
  cases hm : toIpv4Mapped a with
  | some v =>
    obtain ⟨x, y, rfl, rfl⟩ := toIpv4Mapped_some hm
    have hx := h.2 x (by simp)
    have hy := h.2 y (by simp)
    refine .inl ⟨x / 256, x % 256, y / 256, y % 256, ⟨rfl, by simp; omega⟩, ?_, _, rfl, rfl⟩
    congr 7
    · omega
    · congr 1; omega
  | none =>
    refine .inr ⟨?_, ?_⟩
    · rintro ⟨x, y, rfl⟩; cases hm
    · obtain ⟨z1, z2⟩ := zeroSpan_longest a
      simp only
      split
      · rename_i hz
        refine .inl ⟨_, _, hz, z1, fun j m hr => ?_, rfl⟩
        by_cases h0 : m = 0
        · exact ⟨by omega, fun he => by omega⟩
        · exact z2 j m hr (by omega)
      · rename_i hz
        refine .inr ⟨fun j m hr => ?_, rfl⟩
        by_cases h0 : m = 0
        · omega
        · have := (z2 j m hr (by omega)).1; omega

theorem hexText_toDigits (n : Nat) : HexText (Nat.toDigits 16 n) n := by
  have hd : ∀ d, d < 16 → HexDigit (Nat.digitChar d) d := by
    intro d h; left; interval_cases d <;> rfl
  induction n using Nat.strongRecOn with
  | ind n ih =>
    by_cases hn : n < 16
    · rw [Nat.toDigits_of_lt_base hn]; exact .digit (hd n hn)
    · rw [Nat.toDigits_of_base_le (by decide) (by omega)]
      have := HexText.snoc (ih (n / 16) (by omega)) (hd (n % 16) (by omega))
      rwa [Nat.div_add_mod] at this

theorem hexGroup_toDigits {n : Nat} (h : n < 65536) : HexGroup (Nat.toDigits 16 n) n :=
  ⟨(Nat.length_toDigits_le_iff (by decide) (by decide)).2 h, hexText_toDigits n⟩

theorem groupsText_plain {a : List Nat} (h : ∀ x ∈ a, x < 65536) : GroupsText (PlainGroups a) a :=
  ⟨a.map fun g => (Nat.toDigits 16 g, g), by
    intro p hp
    obtain ⟨g, hg, rfl⟩ := List.mem_map.1 hp
    exact hexGroup_toDigits (h g hg), by simp [PlainGroups, Function.comp_def], by simp [Function.comp_def]⟩

theorem zeroRun_split {a : List Nat} {i n : Nat} (h : ZeroRun a i n) (hl : i + n ≤ a.length) :
    a = a.take i ++ List.replicate n 0 ++ a.drop (i + n) := by
  apply List.ext_getElem?
  intro j
  by_cases h1 : j < i
  · rw [List.append_assoc, List.getElem?_append_left (by simp; omega), List.getElem?_take_of_lt h1]
  · by_cases h2 : j < i + n
    · rw [List.append_assoc, List.getElem?_append_right (by simp; omega), List.getElem?_append_left (by simp; omega),
        h j (by omega) h2, List.getElem?_replicate, if_pos (by simp; omega)]
    · rw [List.getElem?_append_right (by simp; omega), List.getElem?_drop]
      congr 1
      simp; omega

/-- The recommended text is a text of the address. -/
theorem ipv6Text_of_canonical {t : Str} {a : List Nat} (ha : Groups a) (h : Ipv6Canonical t a) : Ipv6Text t a := by
  refine ⟨ha.1, ?_⟩
  rcases h with ⟨w, x, y, z, ho, rfl, t4, h4, rfl⟩ | ⟨-, ⟨i, n, hn, hr, -, rfl⟩ | ⟨-, rfl⟩⟩
  · refine .inr ⟨[], [], 5, _, [65535, w * 256 + x, y * 256 + z], ⟨[], by simp, rfl, rfl⟩,
      .inr ⟨[("ffff".toList, 65535)], t4, w, x, y, z, ?_, ho, h4, rfl, rfl⟩, by decide, ?_, rfl⟩
    · intro p hp
      simp only [List.mem_singleton] at hp
      subst hp
      exact hexGroup_toDigits (n := 65535) (by decide)
    · simp [List.intercalate]
  · have hl := zeroRun_lt hr (by omega)
    exact .inr ⟨_, _, n, _, _, groupsText_plain fun x hx => ha.2 x (List.mem_of_mem_take hx),
      .inl (groupsText_plain fun x hx => ha.2 x (List.mem_of_mem_drop hx)), by omega, rfl, zeroRun_split hr hl⟩
  · exact .inl (.inl (groupsText_plain ha.2))

theorem groupsText_lt {t : Str} {a : List Nat} (h : GroupsText t a) : ∀ x ∈ a, x < 65536 := by
  obtain ⟨parts, hp, -, rfl⟩ := h
  intro x hx
  obtain ⟨p, h1, rfl⟩ := List.mem_map.1 hx
  exact hexGroup_lt (hp p h1)

theorem endText_lt {t : Str} {a : List Nat} (h : EndText t a) : ∀ x ∈ a, x < 65536 := by
  rcases h with h | ⟨parts, t4, w, x, y, z, hp, ho, -, -, rfl⟩
  · exact groupsText_lt h
  · intro g hg
    have h2 := ho.2
    simp only [List.mem_cons, List.not_mem_nil, or_false, forall_eq_or_imp, forall_eq] at h2
    rcases List.mem_append.1 hg with hg | hg
    · obtain ⟨p, h1, rfl⟩ := List.mem_map.1 hg
      exact hexGroup_lt (hp p h1)
    · simp at hg; omega

theorem ipv6Text_groups {t : Str} {a : List Nat} (h : Ipv6Text t a) : Groups a := by
  refine ⟨h.1, ?_⟩
  rcases h.2 with h | ⟨t1, l, n, t2, r, h1, h2, -, -, rfl⟩
  · exact endText_lt h
  · intro x hx
    rcases List.mem_append.1 hx with hx | hx
    · rcases List.mem_append.1 hx with hx | hx
      · exact groupsText_lt h1 x hx
      · rw [(List.mem_replicate.1 hx).2]; decide
    · exact endText_lt h2 x hx

/-! ### Either kind -/

theorem colons_colon (ps : List Str) (t : Str) (ht : ∀ c cs, t = c :: cs → c = ':') : ∀ c cs, colons ps ++ t = c :: cs → c = ':' := by
  intro c cs hc
  cases ps with
  | nil => exact ht c cs hc
  | cons p ps => cases hc; rfl

/-- No IPv4 address is read at the beginning of an IPv6 address. -/
theorem ipv6Text_not_ipv4 {t : Str} {a : List Nat} (h : Ipv6Text t a) : readIpv4 t = none := by
  cases hr : readIpv4 t with
  | none => rfl
  | some x =>
    exfalso
    obtain ⟨h8, h⟩ := h
    have start : ∀ (parts : List (Str × Nat)) (more : List Str) (t' : Str), (∀ p ∈ parts, HexGroup p.1 p.2) → parts ≠ [] →
        (∀ c cs, t' = c :: cs → c = ':') → t = List.intercalate [':'] (parts.map (·.1) ++ more) ++ t' → False := by
      intro parts more t' hp hne ht' ht
      cases parts with
      | nil => exact hne rfl
      | cons p ps =>
        rw [List.map_cons, List.cons_append, intercalate_colon, List.append_assoc] at ht
        rw [ht] at hr
        exact not_readIpv4 (hp p (by simp)) (colons_colon _ _ ht') x hr
    rcases h with (⟨parts, hp, ht, ha⟩ | ⟨parts, t4, w, x, y, z, hp, ho, h4, ht, ha⟩) | ⟨t1, l, n, t2, r, ⟨parts, hp, h1, -⟩, h2, -, ht, -⟩
    · refine start parts [] [] hp ?_ (fun _ _ h => by cases h) (by simpa using ht)
      rintro rfl; rw [ha] at h8; simp at h8
    · refine start parts [t4] [] hp ?_ (fun _ _ h => by cases h) (by simpa using ht)
      rintro rfl; rw [ha] at h8; simp at h8
    · by_cases hne : parts = []
      · subst hne
        have : t = ':' :: ':' :: t2 := by rw [ht, h1]; simp [List.intercalate]
        rw [this, readIpv4_none_of_head (fun c cs h => by cases h; decide)] at hr
        cases hr
      · refine start parts [] (':' :: ':' :: t2) hp hne (fun c cs h => by cases h; rfl) ?_
        rw [ht, h1]; simp

theorem parseIp_v4 {s : Str} {a : List Nat} : parseIp s = some (.inl a) ↔ Octets a ∧ Ipv4Text s a := by
  have : parseIp s = some (.inl a) ↔ readIpv4 s = some (a, []) := by
    unfold parseIp
    rw [parseWith_iff]
    unfold readIp
    cases readIpv4 s with
    | some x => simp [Prod.ext_iff]
    | none => simp
  rw [this, readIpv4_iff, List.append_nil]
  exact ⟨fun h => ⟨h.1, h.2.1⟩, fun h => ⟨h.1, h.2, noDigit_nil⟩⟩

theorem parseIp_v6 {s : Str} {a : List Nat} : parseIp s = some (.inr a) ↔ Ipv6Text s a := by
  rw [← parseIpv6_iff]
  unfold parseIp parseIpv6
  rw [parseWith_iff, parseWith_iff]
  constructor
  · intro h
    unfold readIp at h
    cases hr : readIpv4 s with
    | some x => rw [hr] at h; simp at h
    | none => rw [hr] at h; simpa using h
  · intro h
    have hn := ipv6Text_not_ipv4 (parseIpv6_iff.1 (parseWith_iff.2 h))
    unfold readIp
    rw [hn]
    simpa using h

end Proofs
