import Verif.Std.Str

/-
Model of byte positions in Rust strings.  `str` slicing and `String::replace_range` / `String::truncate` take
byte positions and panic when a position is past the end or inside a character; `none` is that panic.
-/

namespace Rust

/-- `str::len`: the number of UTF-8 bytes. -/
def byteLen (s : Str) : Nat := (s.map Char.utf8Size).sum

/-- The text before and after byte position `n`: `(&s[..n], &s[n..])`. -/
def splitAtByte : Nat → Str → Option (Str × Str)
  | 0, s => some ([], s)
  | _ + 1, [] => none
  | n + 1, c :: cs =>
    if c.utf8Size ≤ n + 1 then
      (splitAtByte (n + 1 - c.utf8Size) cs).map fun (a, b) => (c :: a, b)
    else none
termination_by structural _ s => s

/-- `&s[..n]`. -/
def sliceTo (s : Str) (n : Nat) : Option Str := (splitAtByte n s).map (·.1)

/-- `&s[n..]`. -/
def sliceFrom (s : Str) (n : Nat) : Option Str := (splitAtByte n s).map (·.2)

/-- `s.replace_range(..n, w)`. -/
def replaceTo (s : Str) (n : Nat) (w : Str) : Option Str := (sliceFrom s n).map (w ++ ·)

/-- `s.replace_range(n.., w)`. -/
def replaceFrom (s : Str) (n : Nat) (w : Str) : Option Str := (sliceTo s n).map (· ++ w)

/-- `s.truncate(n)`: no effect when `n` is past the end. -/
def truncate (s : Str) (n : Nat) : Option Str := if n ≤ byteLen s then sliceTo s n else some s

theorem byteLen_append (a b : Str) : byteLen (a ++ b) = byteLen a + byteLen b := by
  simp [byteLen]

theorem byteLen_cons (c : Char) (s : Str) : byteLen (c :: s) = c.utf8Size + byteLen s := by
  simp [byteLen]

theorem splitAtByte_append (a b : Str) : splitAtByte (byteLen a) (a ++ b) = some (a, b) := by
  induction a with
  | nil => simp [byteLen, splitAtByte]
  | cons c cs ih =>
    have h := Char.utf8Size_pos c
    obtain ⟨m, hm⟩ : ∃ m, c.utf8Size + byteLen cs = m + 1 := ⟨c.utf8Size + byteLen cs - 1, by omega⟩
    rw [byteLen_cons, hm, List.cons_append, splitAtByte, if_pos (by omega), ← hm, Nat.add_sub_cancel_left, ih]
    rfl

theorem splitAtByte_eq_some {n : Nat} {s a b : Str} :
    splitAtByte n s = some (a, b) ↔ s = a ++ b ∧ n = byteLen a := by
  constructor
  · intro h
    induction s generalizing n a b with
    | nil =>
      cases n with
      | zero => simp [splitAtByte] at h; obtain ⟨rfl, rfl⟩ := h; simp [byteLen]
      | succ n => simp [splitAtByte] at h
    | cons c cs ih =>
      cases n with
      | zero => simp [splitAtByte] at h; obtain ⟨rfl, rfl⟩ := h; simp [byteLen]
      | succ n =>
        rw [splitAtByte] at h
        split at h
        · next hle =>
          simp only [Option.map_eq_some_iff, Prod.exists, Prod.mk.injEq] at h
          obtain ⟨x, y, hxy, rfl, rfl⟩ := h
          obtain ⟨rfl, h2⟩ := ih hxy
          refine ⟨rfl, ?_⟩
          rw [byteLen_cons]; omega
        · simp at h
  · rintro ⟨rfl, rfl⟩
    exact splitAtByte_append a b

theorem sliceTo_append (a b : Str) : sliceTo (a ++ b) (byteLen a) = some a := by
  simp [sliceTo, splitAtByte_append]

theorem sliceFrom_append (a b : Str) : sliceFrom (a ++ b) (byteLen a) = some b := by
  simp [sliceFrom, splitAtByte_append]

theorem replaceTo_append (a b w : Str) : replaceTo (a ++ b) (byteLen a) w = some (w ++ b) := by
  simp [replaceTo, sliceFrom_append]

theorem replaceFrom_append (a b w : Str) : replaceFrom (a ++ b) (byteLen a) w = some (a ++ w) := by
  simp [replaceFrom, sliceTo_append]

theorem truncate_append (a b : Str) : truncate (a ++ b) (byteLen a) = some a := by
  rw [truncate, if_pos (by rw [byteLen_append]; omega), sliceTo_append]

theorem splitAtByte_past {s : Str} {n : Nat} (h : byteLen s < n) : splitAtByte n s = none := by
  match hs : splitAtByte n s with
  | none => rfl
  | some (a, b) =>
    obtain ⟨rfl, rfl⟩ := splitAtByte_eq_some.1 hs
    rw [byteLen_append] at h
    omega

theorem sliceFrom_past {s : Str} {n : Nat} (h : byteLen s < n) : sliceFrom s n = none := by
  simp [sliceFrom, splitAtByte_past h]

theorem sliceTo_past {s : Str} {n : Nat} (h : byteLen s < n) : sliceTo s n = none := by
  simp [sliceTo, splitAtByte_past h]

end Rust
