import Verif.Std.Str
import Verif.Std.Outcome

/-
Model of `OsStr` on Unix, where a path is any sequence of bytes: `Path::to_str` (`str::from_utf8`) and `Path::display`
(which writes what is not UTF-8 as U+FFFD, `Utf8Chunks` of the standard library).
-/

namespace Rust

/-- The UTF-8 bytes of a text. -/
def utf8 (s : Str) : List UInt8 := s.flatMap String.utf8EncodeChar

/-- The first character of the bytes, if there is one (`ByteArray.utf8DecodeChar?` of Lean, proved there to be the inverse
of the encoding). -/
def firstChar (b : List UInt8) : Option Char := b.toByteArray.utf8DecodeChar? 0

/-- `OsStr::to_str`, `Path::to_str`, `OsString::into_string`: a text if all bytes are UTF-8; `fuel` is the number of bytes. -/
def toStrAux : Nat → List UInt8 → Option Str
  | _, [] => some []
  | 0, _ => none
  | fuel + 1, b =>
    match firstChar b with
    | some c => (toStrAux fuel (b.drop c.utf8Size)).map (c :: ·)
    | none => none

/-- `Path::to_str`. -/
def osToStr (b : List UInt8) : Option Str := toStrAux b.length b

/-- `safe_get(i) & 192 == TAG_CONT_U8`. -/
def isContinuation (b : Option UInt8) : Bool := b.any fun b => 0x80 ≤ b && b ≤ 0xBF

/-- The second byte fits the first of three or four. -/
def secondFits (first : UInt8) (second : Option UInt8) : Bool :=
  second.any fun b =>
    if first = 0xE0 then 0xA0 ≤ b && b ≤ 0xBF
    else if first = 0xED then 0x80 ≤ b && b ≤ 0x9F
    else if first = 0xF0 then 0x90 ≤ b && b ≤ 0xBF
    else if first = 0xF4 then 0x80 ≤ b && b ≤ 0x8F
    else 0x80 ≤ b && b ≤ 0xBF

/-- How many of the bytes, which do not begin with a character, are written as one U+FFFD (`Utf8Chunks::next`): those that
could begin one. -/
def badLength : List UInt8 → Nat
  | [] => 0
  | first :: rest =>
    if 0xE0 ≤ first && first ≤ 0xEF then
      if secondFits first rest[0]? then 2 else 1
    else if 0xF0 ≤ first && first ≤ 0xF4 then
      if secondFits first rest[0]? then
        if isContinuation rest[1]? then 3 else 2
      else 1
    else 1

/-- The replacement character. -/
def replacement : Char := Char.ofNat 0xFFFD

/-- `Display` of a path; `fuel` is the number of bytes. -/
def lossyAux : Nat → List UInt8 → Str
  | _, [] => []
  | 0, _ => []
  | fuel + 1, b =>
    match firstChar b with
    | some c => c :: lossyAux fuel (b.drop c.utf8Size)
    | none => replacement :: lossyAux fuel (b.drop (badLength b))

/-- `Path::display().to_string()`, `OsStr::to_string_lossy`. -/
def lossy (b : List UInt8) : Str := lossyAux b.length b

theorem utf8_nil : utf8 [] = [] := rfl

theorem utf8_cons (c : Char) (s : Str) : utf8 (c :: s) = String.utf8EncodeChar c ++ utf8 s := rfl

theorem utf8_append (s t : Str) : utf8 (s ++ t) = utf8 s ++ utf8 t := by simp [utf8]

theorem utf8EncodeChar_ne_nil (c : Char) : String.utf8EncodeChar c ≠ [] := by
  intro h
  have := congrArg List.length h
  rw [String.length_utf8EncodeChar] at this
  have := Char.utf8Size_pos c
  simp_all

theorem firstChar_encode (c : Char) (b : List UInt8) : firstChar (String.utf8EncodeChar c ++ b) = some c := by
  unfold firstChar
  rw [List.toByteArray_append]
  exact ByteArray.utf8DecodeChar?_utf8EncodeChar_append

theorem drop_encode (c : Char) (b : List UInt8) : (String.utf8EncodeChar c ++ b).drop c.utf8Size = b := by
  rw [← String.length_utf8EncodeChar, List.drop_left]

theorem firstChar_some {b : List UInt8} {c : Char} (h : firstChar b = some c) :
    b = String.utf8EncodeChar c ++ b.drop c.utf8Size := by
  unfold firstChar at h
  obtain ⟨l, hl⟩ := ByteArray.exists_of_utf8DecodeChar?_eq_some h
  have : b = String.utf8EncodeChar c ++ l.data.toList := by
    have := congrArg (fun x : ByteArray => x.data.toList) hl
    simpa using this
  rw [this, drop_encode]

theorem badLength_pos {b : List UInt8} (h : b ≠ []) : 0 < badLength b := by
  cases b with
  | nil => exact absurd rfl h
  | cons x xs =>
    simp only [badLength]
    split
    · split <;> omega
    · split
      · split
        · split <;> omega
        · omega
      · omega

/-- The number of steps does not matter. -/
theorem lossyAux_fuel (n : Nat) (b : List UInt8) (h : b.length ≤ n) : lossyAux n b = lossy b := by
  unfold lossy
  suffices ∀ m, b.length ≤ m → lossyAux n b = lossyAux m b from this _ (Nat.le_refl _)
  induction n generalizing b with
  | zero =>
    intro m _
    have : b = [] := List.length_eq_zero_iff.mp (by omega)
    subst this
    cases m <;> rfl
  | succ n ih =>
    intro m hm
    cases b with
    | nil => cases m <;> rfl
    | cons x xs =>
      cases m with
      | zero => simp at hm
      | succ m =>
        have hd : ∀ k, 0 < k → ((x :: xs).drop k).length ≤ n ∧ ((x :: xs).drop k).length ≤ m := by
          intro k hk
          simp only [List.length_drop, List.length_cons] at h hm ⊢
          omega
        unfold lossyAux
        cases firstChar (x :: xs) with
        | some c =>
          obtain ⟨h1, h2⟩ := hd _ (Char.utf8Size_pos c)
          exact congrArg _ (ih _ h1 _ h2)
        | none =>
          obtain ⟨h1, h2⟩ := hd _ (badLength_pos (List.cons_ne_nil x xs))
          exact congrArg _ (ih _ h1 _ h2)

theorem lossy_nil : lossy [] = [] := rfl

theorem lossy_char (c : Char) (b : List UInt8) : lossy (String.utf8EncodeChar c ++ b) = c :: lossy b := by
  have hne : String.utf8EncodeChar c ++ b ≠ [] := fun h => utf8EncodeChar_ne_nil c (List.append_eq_nil_iff.mp h).1
  obtain ⟨n, hn⟩ : ∃ n, (String.utf8EncodeChar c ++ b).length = n + 1 :=
    Nat.exists_eq_succ_of_ne_zero fun h => hne (List.length_eq_zero_iff.mp h)
  unfold lossy
  rw [hn]
  have step : ∀ l : List UInt8, l ≠ [] → lossyAux (n + 1) l = (match firstChar l with
      | some c => c :: lossyAux n (l.drop c.utf8Size)
      | none => replacement :: lossyAux n (l.drop (badLength l))) := by
    intro l hl
    cases l with
    | nil => exact absurd rfl hl
    | cons => rfl
  rw [step _ hne, firstChar_encode]
  simp only []
  rw [drop_encode, lossyAux_fuel n b ?_]
  · rfl
  · rw [List.length_append, String.length_utf8EncodeChar] at hn
    have := Char.utf8Size_pos c
    omega

theorem lossy_bad {b : List UInt8} (hne : b ≠ []) (h : firstChar b = none) :
    lossy b = replacement :: lossy (b.drop (badLength b)) := by
  cases b with
  | nil => exact absurd rfl hne
  | cons x xs =>
    have hl : ((x :: xs).drop (badLength (x :: xs))).length ≤ xs.length := by
      have := badLength_pos (List.cons_ne_nil x xs)
      simp only [List.length_drop, List.length_cons]
      omega
    conv => lhs; unfold lossy lossyAux
    rw [List.length_cons]
    simp only []
    rw [h]
    simp only []
    rw [lossyAux_fuel _ _ hl]

/-- Writing the path of a text gives the text. -/
theorem lossy_utf8 (s : Str) : lossy (utf8 s) = s := by
  induction s with
  | nil => rfl
  | cons c s ih => rw [utf8_cons, lossy_char, ih]

theorem utf8_injective : Function.Injective utf8 := fun s t h => by rw [← lossy_utf8 s, h, lossy_utf8]

theorem toStrAux_sound (n : Nat) (b : List UInt8) (s : Str) (h : toStrAux n b = some s) : b = utf8 s := by
  induction n generalizing b s with
  | zero =>
    cases b with
    | nil => cases h; rfl
    | cons => cases h
  | succ n ih =>
    cases b with
    | nil => cases h; rfl
    | cons x xs =>
      unfold toStrAux at h
      cases hf : firstChar (x :: xs) with
      | none => rw [hf] at h; cases h
      | some c =>
        rw [hf] at h
        simp only [Option.map_eq_some_iff] at h
        obtain ⟨t, ht, rfl⟩ := h
        rw [utf8_cons, ← ih _ _ ht]
        exact firstChar_some hf

theorem toStrAux_utf8 (s : Str) (n : Nat) (h : (utf8 s).length ≤ n) : toStrAux n (utf8 s) = some s := by
  induction s generalizing n with
  | nil => cases n <;> rfl
  | cons c s ih =>
    rw [utf8_cons] at h ⊢
    have hne : String.utf8EncodeChar c ++ utf8 s ≠ [] :=
      fun h => utf8EncodeChar_ne_nil c (List.append_eq_nil_iff.mp h).1
    have hp := Char.utf8Size_pos c
    rw [List.length_append, String.length_utf8EncodeChar] at h
    cases n with
    | zero => omega
    | succ n =>
      have step : ∀ l : List UInt8, l ≠ [] → toStrAux (n + 1) l = (match firstChar l with
          | some c => (toStrAux n (l.drop c.utf8Size)).map (c :: ·)
          | none => none) := by
        intro l hl
        cases l with
        | nil => exact absurd rfl hl
        | cons => rfl
      rw [step _ hne, firstChar_encode]
      simp only []
      rw [drop_encode, ih n (by omega)]
      rfl

/-- `Path::to_str` gives the text exactly if the bytes are its UTF-8 bytes. -/
theorem osToStr_iff (b : List UInt8) (s : Str) : osToStr b = some s ↔ b = utf8 s :=
  ⟨toStrAux_sound _ _ _, fun h => h ▸ toStrAux_utf8 s _ (Nat.le_refl _)⟩

/-! ### ASCII -/

/-- A character below 128 is its byte. -/
theorem encode_ascii {c : Char} (h : c.val ≤ 127) : String.utf8EncodeChar c = [c.val.toUInt8] :=
  String.utf8EncodeChar_eq_singleton (Char.utf8Size_eq_one_iff.mpr h)

theorem encode_not_ascii {c : Char} (h : ¬ c.val ≤ 127) : ∀ b ∈ String.utf8EncodeChar c, 128 ≤ b := by
  have or_le : ∀ x y : UInt8, 128 ≤ y → 128 ≤ x ||| y := by
    intro x y h
    rw [UInt8.le_iff_toNat_le] at h ⊢
    rw [UInt8.toNat_or]
    exact Nat.le_trans h Nat.right_le_or
  rcases Char.utf8Size_eq c with h1 | h1 | h1 | h1
  · exact absurd (Char.utf8Size_eq_one_iff.mp h1) h
  · rw [String.utf8EncodeChar_eq_cons_cons h1]
    intro b hb
    simp only [List.mem_cons, List.not_mem_nil, or_false] at hb
    rcases hb with rfl | rfl <;> exact or_le _ _ (by decide)
  · rw [String.utf8EncodeChar_eq_cons_cons_cons h1]
    intro b hb
    simp only [List.mem_cons, List.not_mem_nil, or_false] at hb
    rcases hb with rfl | rfl | rfl <;> exact or_le _ _ (by decide)
  · rw [String.utf8EncodeChar_eq_cons_cons_cons_cons h1]
    intro b hb
    simp only [List.mem_cons, List.not_mem_nil, or_false] at hb
    rcases hb with rfl | rfl | rfl | rfl <;> exact or_le _ _ (by decide)

/-- An ASCII character and its byte. -/
def AsciiByte (c : Char) (k : UInt8) : Prop := c.val ≤ 127 ∧ c.val.toUInt8 = k

theorem AsciiByte.lt {c : Char} {k : UInt8} (h : AsciiByte c k) : k < 128 := by
  obtain ⟨h1, rfl⟩ := h
  rw [UInt8.lt_iff_toNat_lt, UInt32.toNat_toUInt8]
  rw [UInt32.le_iff_toNat_le] at h1
  exact Nat.lt_of_le_of_lt (Nat.mod_le _ _) (Nat.lt_succ_of_le h1)

theorem AsciiByte.unique {c d : Char} {k : UInt8} (h : AsciiByte c k) (h' : AsciiByte d k) : c = d := by
  have h1 := encode_ascii h.1
  have h2 := encode_ascii h'.1
  rw [h.2] at h1
  rw [h'.2] at h2
  have := firstChar_encode c []
  rw [h1, ← h2, firstChar_encode] at this
  exact (Option.some.inj this).symm

/-- Every byte below 128 is a character. -/
theorem exists_ascii {k : UInt8} (h : k < 128) : ∃ c, AsciiByte c k := by
  have hk : k.toNat < 128 := UInt8.lt_iff_toNat_lt.mp h
  refine ⟨⟨k.toUInt32, ?_⟩, ?_, ?_⟩
  · show Nat.isValidChar k.toUInt32.toNat
    left
    rw [UInt8.toNat_toUInt32]
    omega
  · rw [UInt32.le_iff_toNat_le]
    show k.toUInt32.toNat ≤ 127
    rw [UInt8.toNat_toUInt32]
    omega
  · exact UInt8.toUInt8_toUInt32 k

theorem lossy_ascii {c : Char} {k : UInt8} (h : AsciiByte c k) (b : List UInt8) : lossy (k :: b) = c :: lossy b := by
  have := lossy_char c b
  rwa [encode_ascii h.1, h.2] at this

theorem utf8_ascii {c : Char} {k : UInt8} (h : AsciiByte c k) (s : Str) : utf8 (c :: s) = k :: utf8 s := by
  rw [utf8_cons, encode_ascii h.1, h.2]
  rfl

/-- What does not begin with a character does not begin with an ASCII byte. -/
theorem firstChar_none {k : UInt8} {b : List UInt8} (h : firstChar (k :: b) = none) : 128 ≤ k := by
  refine Decidable.byContradiction fun hk => ?_
  obtain ⟨c, hc⟩ := exists_ascii (UInt8.not_le.mp hk)
  have := firstChar_encode c b
  rw [encode_ascii hc.1, hc.2] at this
  rw [List.singleton_append] at this
  rw [this] at h
  cases h

/-- The bytes that are replaced are not ASCII. -/
theorem bad_bytes {b : List UInt8} (h : firstChar b = none) : ∀ x ∈ b.take (badLength b), 128 ≤ x := by
  cases b with
  | nil => intro x hx; cases hx
  | cons k rest =>
    have hk := firstChar_none h
    have cont : ∀ {o : Option UInt8} {x}, isContinuation o = true → o = some x → 128 ≤ x := by
      rintro o x ho rfl
      simp only [isContinuation, Option.any_some, Bool.and_eq_true, decide_eq_true_eq] at ho
      exact ho.1
    have snd : ∀ {o : Option UInt8} {x}, secondFits k o = true → o = some x → 128 ≤ x := by
      rintro o x ho rfl
      simp only [secondFits, Option.any_some] at ho
      have weak : ∀ m : UInt8, 128 ≤ m → m ≤ x → 128 ≤ x := fun m h1 h2 => UInt8.le_trans h1 h2
      split at ho
      · simp only [Bool.and_eq_true, decide_eq_true_eq] at ho; exact weak _ (by decide) ho.1
      split at ho
      · simp only [Bool.and_eq_true, decide_eq_true_eq] at ho; exact weak _ (by decide) ho.1
      split at ho
      · simp only [Bool.and_eq_true, decide_eq_true_eq] at ho; exact weak _ (by decide) ho.1
      split at ho
      · simp only [Bool.and_eq_true, decide_eq_true_eq] at ho; exact weak _ (by decide) ho.1
      · simp only [Bool.and_eq_true, decide_eq_true_eq] at ho; exact weak _ (by decide) ho.1
    have one : ∀ x ∈ (k :: rest).take 1, 128 ≤ x := by simp [hk]
    have two : secondFits k rest[0]? = true → ∀ x ∈ (k :: rest).take 2, 128 ≤ x := by
      intro hs x hx
      cases rest with
      | nil => simp at hx; exact hx ▸ hk
      | cons y ys =>
        simp at hx
        rcases hx with rfl | rfl
        · exact hk
        · exact snd hs rfl
    simp only [badLength]
    split
    · split
      · rename_i hs; exact two hs
      · exact one
    · split
      · split
        · rename_i hs
          split
          · rename_i hc
            intro x hx
            rcases rest with _ | ⟨y, _ | ⟨z, zs⟩⟩
            · simp at hx; exact hx ▸ hk
            · simp at hx
              rcases hx with rfl | rfl
              · exact hk
              · exact snd hs rfl
            · simp at hx
              rcases hx with rfl | rfl | rfl
              · exact hk
              · exact snd hs rfl
              · exact cont hc rfl
          · exact two hs
        · exact one
      · exact one

/-- How bytes are written: characters as they are, other bytes, none of them ASCII, as U+FFFD. -/
inductive Chunks : List UInt8 → Str → Prop
  | nil : Chunks [] []
  | char (c : Char) {b : List UInt8} {s : Str} (h : Chunks b s) : Chunks (String.utf8EncodeChar c ++ b) (c :: s)
  | bad {x b : List UInt8} {s : Str} (hx : ∀ k ∈ x, 128 ≤ k) (h : Chunks b s) : Chunks (x ++ b) (replacement :: s)

theorem lossy_chunks (b : List UInt8) : Chunks b (lossy b) := by
  generalize hn : b.length = n
  induction n using Nat.strongRecOn generalizing b with
  | ind n ih =>
    cases b with
    | nil => exact .nil
    | cons k rest =>
      cases hf : firstChar (k :: rest) with
      | some c =>
        have he := firstChar_some hf
        have hl := Char.utf8Size_pos c
        rw [he, lossy_char]
        refine .char c (ih _ ?_ _ rfl)
        rw [← hn]
        simp only [List.length_drop, List.length_cons]
        omega
      | none =>
        rw [lossy_bad (List.cons_ne_nil _ _) hf]
        have hl := badLength_pos (List.cons_ne_nil k rest)
        have := Chunks.bad (bad_bytes hf) (ih ((k :: rest).drop (badLength (k :: rest))).length (by
          rw [← hn]
          simp only [List.length_drop, List.length_cons]
          omega) _ rfl)
        rwa [List.take_append_drop] at this

theorem replacement_not_ascii {k : UInt8} : ¬ AsciiByte replacement k := fun h => absurd h.1 (by decide)

/-- ASCII characters are written where their bytes are. -/
theorem Chunks.mem {b : List UInt8} {s : Str} (h : Chunks b s) {c : Char} {k : UInt8} (hc : AsciiByte c k) :
    c ∈ s ↔ k ∈ b := by
  have hlt := hc.lt
  have not_le : ¬ 128 ≤ k := UInt8.not_le.mpr hlt
  induction h with
  | nil => simp
  | char d h ih =>
    rw [List.mem_cons, List.mem_append]
    by_cases hd : d.val ≤ 127
    · rw [encode_ascii hd, List.mem_singleton]
      constructor
      · rintro (rfl | h)
        · exact .inl hc.2.symm
        · exact .inr (ih.mp h)
      · rintro (h | h)
        · exact .inl (AsciiByte.unique hc ⟨hd, h.symm⟩)
        · exact .inr (ih.mpr h)
    · constructor
      · rintro (rfl | h)
        · exact absurd hc.1 hd
        · exact .inr (ih.mp h)
      · rintro (h | h)
        · exact absurd (encode_not_ascii hd k h) not_le
        · exact .inr (ih.mpr h)
  | bad hx h ih =>
    rw [List.mem_cons, List.mem_append]
    constructor
    · rintro (rfl | h)
      · exact absurd hc replacement_not_ascii
      · exact .inr (ih.mp h)
    · rintro (h | h)
      · exact absurd (hx k h) not_le
      · exact .inr (ih.mpr h)

theorem mem_lossy {c : Char} {k : UInt8} (hc : AsciiByte c k) (b : List UInt8) : c ∈ lossy b ↔ k ∈ b :=
  (lossy_chunks b).mem hc

theorem lossy_eq_nil (b : List UInt8) : lossy b = [] ↔ b = [] := by
  constructor
  · intro h
    cases b with
    | nil => rfl
    | cons k rest =>
      exfalso
      cases hf : firstChar (k :: rest) with
      | some c => rw [firstChar_some hf, lossy_char] at h; cases h
      | none => rw [lossy_bad (List.cons_ne_nil _ _) hf] at h; cases h
  · rintro rfl; rfl

/-- A text that begins with an ASCII character is written for bytes that begin with its byte. -/
theorem lossy_eq_cons {c : Char} {k : UInt8} (hc : AsciiByte c k) (b : List UInt8) (s : Str) :
    lossy b = c :: s ↔ ∃ rest, b = k :: rest ∧ lossy rest = s := by
  constructor
  · intro h
    cases b with
    | nil => cases h
    | cons x rest =>
      cases hf : firstChar (x :: rest) with
      | some d =>
        have he := firstChar_some hf
        rw [he, lossy_char, List.cons.injEq] at h
        obtain ⟨rfl, hs⟩ := h
        rw [encode_ascii hc.1, hc.2, List.singleton_append] at he
        exact ⟨_, he, hs⟩
      | none =>
        rw [lossy_bad (List.cons_ne_nil _ _) hf, List.cons.injEq] at h
        exact absurd hc (h.1 ▸ replacement_not_ascii)
  · rintro ⟨rest, rfl, rfl⟩
    exact lossy_ascii hc rest

end Rust
