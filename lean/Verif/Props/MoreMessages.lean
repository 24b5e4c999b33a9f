import Verif.Props.Messages
import Verif.Props.Ports
import Verif.Props.Numbers

/-
C93: messages of constructors that reading a text does not reach.
-/

namespace Props
open Rust Compose Spec

/-- **C93**: a port range that cannot be made has its start above its end, and the message names the start first and then
the end. -/
theorem C93_range_new (s : Nat) (e? : Option Nat) (err : RangeError) (h : Range.new s e? = .error err) :
    ∃ e, e? = some e ∧ e < s ∧ errorChain err.report =
      "the start `".toList ++ Nat.toDigits 10 s ++ "` of the port range must be less than or equal to the end `".toList ++
        Nat.toDigits 10 e ++ "`".toList := by
  obtain ⟨e, h1, h2, rfl⟩ := (C13_range_new_error s e? err).1 h
  refine ⟨e, h1, h2, ?_⟩
  rw [RangeError.report, errorChain_root]
  simp [showNat]

example : ∃ err, Range.new 90 (some 80) = .error err ∧
    errorChain err.report = "the start `90` of the port range must be less than or equal to the end `80`".toList :=
  ⟨_, rfl, by obtain ⟨e, h, _, h'⟩ := C93_range_new 90 (some 80) _ rfl; cases h; exact h'⟩

/-- **C93**: the message about a number of CPUs says that it is negative exactly if its sign is set, and otherwise that it is
not finite, which it is not. -/
theorem C93_cpus (x : F64) (e : InvalidCpusError) (h : Cpus.new x = .error e) :
    2 ^ 63 ≤ x.toNat ∧ errorChain e.report = "cpus cannot be negative".toList ∨
    x.toNat < 2 ^ 63 ∧ floatValue x = none ∧ errorChain e.report = "cpus must be a finite number".toList := by
  cases e with
  | negative => exact .inl ⟨(C65_cpus_new x).2.1.1 h, errorChain_root _⟩
  | infinite =>
    obtain ⟨h1, h2⟩ := (C65_cpus_new x).2.2.1 h
    exact .inr ⟨h1, h2, errorChain_root _⟩

example : ∃ e, Cpus.new (BitVec.ofNat 64 0xBFF0000000000000) = .error e ∧ errorChain e.report = "cpus cannot be negative".toList :=
  ⟨_, rfl, by
    rcases C93_cpus (BitVec.ofNat 64 0xBFF0000000000000) _ rfl with h | h
    · exact h.2
    · exact absurd h.1 (by decide)⟩

end Props
