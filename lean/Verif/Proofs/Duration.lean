import Verif.Model.Duration
import Verif.Spec.Duration
import Verif.Proofs.Number
import Mathlib.Data.List.TakeWhile

/- Helper lemmas for durations. -/

namespace Compose
open Rust Spec

/-- Nanoseconds of a duration. -/
def Duration.toNanos (d : Duration) : Nat := d.secs * 1000000000 + d.nanos
/-- The values a Rust `Duration` can take. -/
def Duration.Wf (d : Duration) : Prop := d.secs ≤ u64Max ∧ d.nanos < 1000000000

theorem Duration.ext_nanos {a b : Duration} (ha : a.Wf) (hb : b.Wf) (h : a.toNanos = b.toNanos) : a = b := by
  cases a; cases b
  simp only [Wf, toNanos] at *
  simp only [Duration.mk.injEq]
  omega

theorem Duration.checkedAdd_spec {a b : Duration} (ha : a.Wf) (hb : b.Wf) :
    (∀ c, a.checkedAdd b = some c → c.Wf ∧ c.toNanos = a.toNanos + b.toNanos) ∧
    (a.checkedAdd b = none ↔ (u64Max + 1) * 1000000000 ≤ a.toNanos + b.toNanos) := by
  simp only [Wf, toNanos, checkedAdd] at *
  generalize u64Max = M at *
  split
  · simp; omega
  · split
    · split
      · simp; omega
      · simp; omega
    · simp; omega

theorem parse_number {s : Str} (h : IsNumber s) :
    parseUnsigned u64Max s =
      if decimal s ≤ u64Max then .ok (decimal s) else parseUnsigned u64Max s := by
  split
  · rename_i hle
    obtain ⟨h1, h2⟩ := isNumber_iff.1 h
    exact parseUnsigned_eq_ok.2 ⟨s, Or.inl rfl, h1, h2, decimal_eq.symm, hle⟩
  · rfl

theorem parse_number_big {s : Str} (h : IsNumber s) (hbig : u64Max < decimal s) :
    ∃ e, parseUnsigned u64Max s = .error e := by
  cases hp : parseUnsigned u64Max s with
  | error e => exact ⟨e, rfl⟩
  | ok n =>
    obtain ⟨ds, h1, h2, h3, h4, h5⟩ := parseUnsigned_eq_ok.1 hp
    obtain ⟨_, hd⟩ := isNumber_iff.1 h
    rcases h1 with rfl | rfl
    · rw [decimal_eq] at hbig; omega
    · have := hd '+' (by simp); simp [isDigit] at this

/-- A unit is made of letters only. -/
theorem unit_nondigit {u : Str} {k : Nat} (h : (u, k) ∈ durationUnits) :
    u ≠ [] ∧ ∀ c ∈ u, isDigit c = false := by
  have : ∀ p ∈ durationUnits, p.1 ≠ [] ∧ ∀ c ∈ p.1, isDigit c = false := by decide
  exact this _ h

/-- `termDuration` on a known unit. -/
theorem termDuration_known {u : Str} {k n : Nat} (hu : (u, k) ∈ durationUnits) (hn : n ≤ u64Max) :
    (∀ d, termDuration u n = .ok d → d.Wf ∧ d.toNanos = n * k) ∧
    (∀ e, termDuration u n = .error e → e = .overflow ∧ (u64Max + 1) * 1000000000 ≤ n * k) := by
  simp only [durationUnits, List.mem_cons, Prod.mk.injEq, List.not_mem_nil, or_false] at hu
  rcases hu with ⟨rfl, rfl⟩ | ⟨rfl, rfl⟩ | ⟨rfl, rfl⟩ | ⟨rfl, rfl⟩ | ⟨rfl, rfl⟩
  · have e : termDuration "h".toList n =
        if n * 3600 > u64Max then .error .overflow else .ok (.fromSecs (n * 3600)) := rfl
    rw [e]
    split
    · exact ⟨(fun _ h => nomatch h), (fun _ h => by cases h; exact ⟨rfl, by omega⟩)⟩
    · refine ⟨fun _ h => ?_, fun _ h => nomatch h⟩
      cases h
      simp only [Duration.fromSecs, Duration.Wf, Duration.toNanos]; omega
  · have e : termDuration "m".toList n =
        if n * 60 > u64Max then .error .overflow else .ok (.fromSecs (n * 60)) := rfl
    rw [e]
    split
    · exact ⟨(fun _ h => nomatch h), (fun _ h => by cases h; exact ⟨rfl, by omega⟩)⟩
    · refine ⟨fun _ h => ?_, fun _ h => nomatch h⟩
      cases h
      simp only [Duration.fromSecs, Duration.Wf, Duration.toNanos]; omega
  · have e : termDuration "s".toList n = .ok (.fromSecs n) := rfl
    rw [e]
    refine ⟨fun _ h => ?_, fun _ h => nomatch h⟩
    cases h
    simp only [Duration.fromSecs, Duration.Wf, Duration.toNanos]; omega
  · have e : termDuration "ms".toList n = .ok (.fromMillis n) := rfl
    rw [e]
    refine ⟨fun _ h => ?_, fun _ h => nomatch h⟩
    cases h
    simp only [Duration.fromMillis, Duration.Wf, Duration.toNanos]; omega
  · have e : termDuration "us".toList n = .ok (.fromMicros n) := rfl
    rw [e]
    refine ⟨fun _ h => ?_, fun _ h => nomatch h⟩
    cases h
    simp only [Duration.fromMicros, Duration.Wf, Duration.toNanos]; omega

/-- `termDuration` on an unknown unit. -/
theorem termDuration_unknown {u : Str} {n : Nat} (hu : ∀ k, (u, k) ∉ durationUnits) :
    termDuration u n = .error (.invalidUnit u) := by
  unfold termDuration
  have h1 : u ≠ str!"h" := by rintro rfl; exact hu (3600 * 1000000000) (by decide)
  have h2 : u ≠ str!"m" := by rintro rfl; exact hu (60 * 1000000000) (by decide)
  have h3 : u ≠ str!"s" := by rintro rfl; exact hu 1000000000 (by decide)
  have h4 : u ≠ str!"ms" := by rintro rfl; exact hu 1000000 (by decide)
  have h5 : u ≠ str!"us" := by rintro rfl; exact hu 1000 (by decide)
  rw [if_neg h1, if_neg h2, if_neg h3, if_neg h4, if_neg h5]

/-- The text after a term: empty or starting with a digit. -/
def Boundary (s : Str) : Prop := s = [] ∨ ∃ c cs, s = c :: cs ∧ isDigit c = true

theorem takeWhile_append_boundary {p : Char → Bool} {a b : Str} (ha : ∀ c ∈ a, p c = true)
    (hb : b = [] ∨ ∃ c cs, b = c :: cs ∧ p c = false) :
    (a ++ b).takeWhile p = a ∧ (a ++ b).dropWhile p = b := by
  rw [List.takeWhile_append_of_pos ha, List.dropWhile_append_of_pos ha]
  rcases hb with rfl | ⟨c, cs, rfl, hc⟩
  · simp
  · simp [List.takeWhile_cons, List.dropWhile_cons, hc]

/-- One iteration of the loop on a number followed by a run of non-digits. -/
theorem durationLoop_step {f : Nat} {ds u tail : Str} {d : Duration} (hds : IsNumber ds)
    (hu : u ≠ [] ∧ ∀ c ∈ u, isDigit c = false) (ht : Boundary tail) :
    durationLoop (f + 1) (ds ++ u ++ tail) d =
      match parseUnsigned u64Max ds with
      | .error _ => .panic
      | .ok value =>
        match termDuration u value with
        | .error e => .err e
        | .ok rhs =>
          match addDuration d rhs with
          | .error e => .err e
          | .ok d => durationLoop f tail d := by
  obtain ⟨h1, h2⟩ := isNumber_iff.1 hds
  have e1 : (ds ++ u ++ tail).takeWhile isDigit = ds ∧ (ds ++ u ++ tail).dropWhile isDigit = u ++ tail := by
    rw [List.append_assoc]
    apply takeWhile_append_boundary h2
    right
    cases u with
    | nil => exact absurd rfl hu.1
    | cons c cs => exact ⟨c, cs ++ tail, rfl, hu.2 c (by simp)⟩
  have e2 : (u ++ tail).takeWhile (fun c => !isDigit c) = u ∧
      (u ++ tail).dropWhile (fun c => !isDigit c) = tail := by
    apply takeWhile_append_boundary (fun c hc => by simp [hu.2 c hc])
    rcases ht with rfl | ⟨c, cs, rfl, hc⟩
    · exact Or.inl rfl
    · exact Or.inr ⟨c, cs, rfl, by simp [hc]⟩
  cases hs : ds ++ u ++ tail with
  | nil => simp at hs; exact absurd hs.1 h1
  | cons c cs =>
    rw [hs] at e1
    rw [durationLoop]
    simp only [e1.1, e1.2, e2.1, e2.2]
    rw [if_neg (by simp; intro h; exact absurd h hu.1), if_neg (by simpa using h1)]
    rfl

theorem boundary_render {ts : List Term} (h : ∀ t ∈ ts, t.Ok) {tail : Str} (ht : Boundary tail) :
    Boundary (renderTerms ts ++ tail) := by
  cases ts with
  | nil => simpa [renderTerms] using ht
  | cons t ts =>
    right
    obtain ⟨h1, h2⟩ := isNumber_iff.1 (h t (by simp)).1
    cases hd : t.digits with
    | nil => exact absurd hd h1
    | cons c cs =>
      refine ⟨c, cs ++ t.unit ++ renderTerms ts ++ tail, ?_, h2 c (by rw [hd]; simp)⟩
      simp [renderTerms, hd]

theorem renderTerms_cons (t : Term) (ts : List Term) :
    renderTerms (t :: ts) = t.digits ++ t.unit ++ renderTerms ts := by
  simp [renderTerms]

theorem totalNanos_cons (t : Term) (ts : List Term) : totalNanos (t :: ts) = t.nanos + totalNanos ts := by
  simp [totalNanos]

theorem length_le_render {ts : List Term} (h : ∀ t ∈ ts, t.Ok) : ts.length ≤ (renderTerms ts).length := by
  induction ts with
  | nil => simp
  | cons t ts ih =>
    have := ih (fun x hx => h x (by simp [hx]))
    have h1 := List.length_pos_iff.2 (isNumber_iff.1 (h t (by simp)).1).1
    simp only [renderTerms_cons, List.length_cons, List.length_append] at *
    omega

/-- Well-formed terms whose numbers fit and whose sum fits are consumed one by one. -/
theorem durationLoop_terms {ts : List Term} (hok : ∀ t ∈ ts, t.Ok)
    (hfit : ∀ t ∈ ts, decimal t.digits ≤ u64Max) {tail : Str} (ht : Boundary tail)
    {d : Duration} (hd : d.Wf) (hsum : d.toNanos + totalNanos ts < (u64Max + 1) * 1000000000) (f : Nat) :
    ∃ d' : Duration, d'.Wf ∧ d'.toNanos = d.toNanos + totalNanos ts ∧
      durationLoop (ts.length + f) (renderTerms ts ++ tail) d = durationLoop f tail d' := by
  induction ts generalizing d with
  | nil => exact ⟨d, hd, by simp [totalNanos], by simp [renderTerms]⟩
  | cons t ts ih =>
    have htok := hok t (by simp)
    have htfit := hfit t (by simp)
    rw [totalNanos_cons] at hsum
    have hb := boundary_render (ts := ts) (fun x hx => hok x (by simp [hx])) ht
    have hstep := durationLoop_step (f := ts.length + f) (d := d) htok.1 (unit_nondigit htok.2) hb
    rw [parse_number htok.1, if_pos htfit] at hstep
    have hterm := termDuration_known htok.2 htfit
    cases hcase : termDuration t.unit (decimal t.digits) with
    | error e =>
      have := (hterm.2 e hcase).2
      simp only [Term.nanos] at hsum; omega
    | ok rhs =>
      obtain ⟨hw, hn⟩ := hterm.1 rhs hcase
      have hadd := Duration.checkedAdd_spec hd hw
      cases hc : d.checkedAdd rhs with
      | none =>
        have := hadd.2.1 hc
        simp only [Term.nanos] at hsum; omega
      | some d1 =>
        obtain ⟨hw1, hn1⟩ := hadd.1 d1 hc
        obtain ⟨d', h1, h2, h3⟩ := ih (fun x hx => hok x (by simp [hx])) (fun x hx => hfit x (by simp [hx]))
          hw1 (by simp only [Term.nanos] at hsum; omega)
        refine ⟨d', h1, ?_, ?_⟩
        · rw [totalNanos_cons, h2]; simp only [Term.nanos]; omega
        · rw [renderTerms_cons, List.append_assoc, List.length_cons]
          have : ts.length + 1 + f = ts.length + f + 1 := by omega
          rw [this, hstep]
          simp only [hcase, addDuration, hc]
          exact h3

/-- How a non-empty string starts. -/
theorem split_first (s : Str) (hne : s ≠ []) :
    (IsNumber s) ∨ (∃ c cs, s = c :: cs ∧ isDigit c = false) ∨
    (∃ ds u tail, s = ds ++ u ++ tail ∧ IsNumber ds ∧ (u ≠ [] ∧ ∀ c ∈ u, isDigit c = false) ∧ Boundary tail) := by
  have hs := List.takeWhile_append_dropWhile (p := isDigit) (l := s)
  have hall : ∀ c ∈ s.takeWhile isDigit, isDigit c = true := fun c hc => List.mem_takeWhile_imp hc
  cases h1 : s.dropWhile isDigit with
  | nil =>
    rw [h1, List.append_nil] at hs
    rw [hs] at hall
    exact Or.inl (isNumber_iff.2 ⟨hne, hall⟩)
  | cons x xs =>
    have hx : isDigit x = false := by
      have := List.head?_dropWhile_not isDigit s
      simpa [h1] using this
    by_cases h2 : s.takeWhile isDigit = []
    · rw [h2, h1, List.nil_append] at hs
      exact Or.inr (Or.inl ⟨x, xs, hs.symm, hx⟩)
    · refine Or.inr (Or.inr ⟨s.takeWhile isDigit, (x :: xs).takeWhile (fun c => !isDigit c),
        (x :: xs).dropWhile (fun c => !isDigit c), ?_, isNumber_iff.2 ⟨h2, hall⟩, ⟨?_, ?_⟩, ?_⟩)
      · rw [List.append_assoc, List.takeWhile_append_dropWhile, ← h1, hs]
      · simp [List.takeWhile_cons, hx]
      · intro c hc
        have := List.mem_takeWhile_imp hc
        simpa using this
      · cases h3 : (x :: xs).dropWhile (fun c => !isDigit c) with
        | nil => exact Or.inl rfl
        | cons y ys =>
          refine Or.inr ⟨y, ys, rfl, ?_⟩
          have := List.head?_dropWhile_not (fun c => !isDigit c) (x :: xs)
          simpa [h3] using this

/-- What the loop leaves after the longest sequence of terms it consumes. -/
inductive Stop (s : Str) (d : Duration) : Outcome DurationError Duration → Prop
  | done : s = [] → Stop s d (.ok d)
  | missingUnit : IsNumber s → Stop s d (.err (.missingUnit s))
  | noDigits {c cs} : s = c :: cs → isDigit c = false → Stop s d (.err (.noDigits s))
  | tooBig {ds u tail} : s = ds ++ u ++ tail → IsNumber ds → u ≠ [] → (∀ c ∈ u, isDigit c = false) →
      Boundary tail → u64Max < decimal ds → Stop s d .panic
  | invalidUnit {ds u tail} : s = ds ++ u ++ tail → IsNumber ds → u ≠ [] → (∀ c ∈ u, isDigit c = false) →
      Boundary tail → decimal ds ≤ u64Max → (∀ k, (u, k) ∉ durationUnits) → Stop s d (.err (.invalidUnit u))
  | overflow {ds u tail k} : s = ds ++ u ++ tail → IsNumber ds → (u, k) ∈ durationUnits →
      Boundary tail → decimal ds ≤ u64Max →
      (u64Max + 1) * 1000000000 ≤ d.toNanos + decimal ds * k → Stop s d (.err .overflow)

/-- The loop consumes some terms, then stops. -/
theorem durationLoop_run (f : Nat) (s : Str) (d : Duration) (hf : s.length ≤ f) (hd : d.Wf)
    (hs : Boundary s) :
    ∃ ts rest d', (∀ t ∈ ts, t.Ok) ∧ (∀ t ∈ ts, decimal t.digits ≤ u64Max) ∧ s = renderTerms ts ++ rest ∧
      Boundary rest ∧
      d'.Wf ∧ d'.toNanos = d.toNanos + totalNanos ts ∧ Stop rest d' (durationLoop f s d) := by
  induction f generalizing s d with
  | zero =>
    have : s = [] := List.eq_nil_of_length_eq_zero (by omega)
    subst this
    exact ⟨[], [], d, by simp, by simp, by simp [renderTerms], hs, hd, by simp [totalNanos],
      by simpa [durationLoop] using Stop.done (s := []) (d := d) rfl⟩
  | succ f ih =>
    by_cases hne : s = []
    · subst hne
      exact ⟨[], [], d, by simp, by simp, by simp [renderTerms], hs, hd, by simp [totalNanos],
        by simpa [durationLoop] using Stop.done (s := []) (d := d) rfl⟩
    · rcases split_first s hne with h | ⟨c, cs, rfl, hc⟩ | ⟨ds, u, tail, rfl, hds, hu, ht⟩
      · refine ⟨[], s, d, by simp, by simp, by simp [renderTerms], hs, hd, by simp [totalNanos], ?_⟩
        have hall := (isNumber_iff.1 h).2
        cases s with
        | nil => exact absurd rfl hne
        | cons x xs =>
          have : (x :: xs).dropWhile isDigit = [] := List.dropWhile_eq_nil_iff.2 hall
          unfold durationLoop
          simp only [this, List.isEmpty_nil, if_true]
          exact .missingUnit h
      · rcases hs with h | ⟨c', cs', h, hc'⟩
        · cases h
        · cases h; rw [hc] at hc'; cases hc'
      · rw [durationLoop_step hds hu ht]
        by_cases hbig : u64Max < decimal ds
        · obtain ⟨e, he⟩ := parse_number_big hds hbig
          rw [he]
          exact ⟨[], _, d, by simp, by simp, by simp [renderTerms], hs, hd, by simp [totalNanos],
            .tooBig rfl hds hu.1 hu.2 ht hbig⟩
        · have hfit : decimal ds ≤ u64Max := by omega
          rw [parse_number hds, if_pos hfit]
          by_cases hk : ∃ k, (u, k) ∈ durationUnits
          · obtain ⟨k, hk⟩ := hk
            have hterm := termDuration_known hk hfit
            simp only
            cases hcase : termDuration u (decimal ds) with
            | error e =>
              obtain ⟨rfl, hov⟩ := hterm.2 e hcase
              exact ⟨[], _, d, by simp, by simp, by simp [renderTerms], hs, hd, by simp [totalNanos],
                .overflow rfl hds hk ht hfit (by omega)⟩
            | ok rhs =>
              obtain ⟨hw, hn⟩ := hterm.1 rhs hcase
              have hadd := Duration.checkedAdd_spec hd hw
              simp only [addDuration]
              cases hc : d.checkedAdd rhs with
              | none =>
                have := hadd.2.1 hc
                exact ⟨[], _, d, by simp, by simp, by simp [renderTerms], hs, hd, by simp [totalNanos],
                  .overflow rfl hds hk ht hfit (by omega)⟩
              | some d1 =>
                obtain ⟨hw1, hn1⟩ := hadd.1 d1 hc
                have hlen : tail.length ≤ f := by
                  have := List.length_pos_iff.2 hds.1
                  simp only [List.length_append] at hf; omega
                obtain ⟨ts, rest, d', h1, h2, h3, hbr, h4, h5, h6⟩ := ih tail d1 hlen hw1 ht
                refine ⟨⟨ds, u, k⟩ :: ts, rest, d', ?_, ?_, ?_, hbr, h4, ?_, h6⟩
                · intro t htm
                  rcases List.mem_cons.1 htm with rfl | htm
                  · exact ⟨hds, hk⟩
                  · exact h1 t htm
                · intro t htm
                  rcases List.mem_cons.1 htm with rfl | htm
                  · exact hfit
                  · exact h2 t htm
                · rw [renderTerms_cons, List.append_assoc _ (renderTerms ts), ← h3]
                · rw [totalNanos_cons]; simp only [Term.nanos]; omega
          · simp only
            rw [termDuration_unknown (fun k h => hk ⟨k, h⟩)]
            exact ⟨[], _, d, by simp, by simp, by simp [renderTerms], hs, hd, by simp [totalNanos],
              .invalidUnit rfl hds hu.1 hu.2 ht hfit (fun k h => hk ⟨k, h⟩)⟩

/-- The converse: the loop stops the way `Stop` says. -/
theorem durationLoop_stop {f : Nat} {s : Str} {d : Duration} {o : Outcome DurationError Duration} (hd : d.Wf)
    (h : Stop s d o) (hf : s ≠ [] → f ≠ 0) : durationLoop f s d = o := by
  cases h with
  | done h => subst h; cases f <;> rfl
  | missingUnit h =>
    obtain ⟨f, rfl⟩ := Nat.exists_eq_succ_of_ne_zero (hf h.1)
    obtain ⟨h1, h2⟩ := isNumber_iff.1 h
    cases s with
    | nil => exact absurd rfl h1
    | cons x xs =>
      have : (x :: xs).dropWhile isDigit = [] := List.dropWhile_eq_nil_iff.2 h2
      rw [durationLoop]
      simp only [this, List.isEmpty_nil, if_true]
  | @noDigits c cs h hc =>
    subst h
    obtain ⟨f, rfl⟩ := Nat.exists_eq_succ_of_ne_zero (hf (by simp))
    rw [durationLoop]
    simp [List.takeWhile_cons, List.dropWhile_cons, hc]
  | tooBig h hds hu hu' ht hbig =>
    subst h
    obtain ⟨f, rfl⟩ := Nat.exists_eq_succ_of_ne_zero (hf (by simp [hu]))
    obtain ⟨e, he⟩ := parse_number_big hds hbig
    rw [durationLoop_step hds ⟨hu, hu'⟩ ht, he]
  | invalidUnit h hds hu hu' ht hfit hk =>
    subst h
    obtain ⟨f, rfl⟩ := Nat.exists_eq_succ_of_ne_zero (hf (by simp [hu]))
    rw [durationLoop_step hds ⟨hu, hu'⟩ ht, parse_number hds, if_pos hfit]
    simp only [termDuration_unknown hk]
  | @overflow ds u tail k h hds hk ht hfit hov =>
    subst h
    have hu := unit_nondigit hk
    obtain ⟨f, rfl⟩ := Nat.exists_eq_succ_of_ne_zero (hf (by simp [hu.1]))
    rw [durationLoop_step hds hu ht, parse_number hds, if_pos hfit]
    have hterm := termDuration_known hk hfit
    cases hcase : termDuration u (decimal ds) with
    | error e => obtain ⟨rfl, _⟩ := hterm.2 e hcase; simp only [hcase]
    | ok rhs =>
      obtain ⟨hw, hn⟩ := hterm.1 rhs hcase
      have := (Duration.checkedAdd_spec hd hw).2.2 (by omega)
      simp only [hcase, addDuration, this]

theorem stop_boundary {s : Str} {d : Duration} {o : Outcome DurationError Duration}
    (h : Stop s d o) (hn : ∀ r, o ≠ .err (.noDigits r)) : Boundary s := by
  have key : ∀ ds r : Str, IsNumber ds → Boundary (ds ++ r) := by
    intro ds r h
    obtain ⟨h1, h2⟩ := isNumber_iff.1 h
    cases ds with
    | nil => exact absurd rfl h1
    | cons c cs => exact Or.inr ⟨c, cs ++ r, rfl, h2 c (by simp)⟩
  cases h with
  | done h => exact Or.inl h
  | missingUnit h => simpa using key s [] h
  | noDigits h => exact absurd rfl (hn _)
  | tooBig h hds => rw [h, List.append_assoc]; exact key _ _ hds
  | invalidUnit h hds => rw [h, List.append_assoc]; exact key _ _ hds
  | overflow h hds => rw [h, List.append_assoc]; exact key _ _ hds

/-- Complete description of `parse`, except for strings that do not start with a digit. -/
theorem durationParse_eq {s : Str} {o : Outcome DurationError Duration} (hs : s ≠ []) (hb : Boundary s) :
    durationParse s = o ↔
      ∃ ts rest d', (∀ t ∈ ts, t.Ok) ∧ (∀ t ∈ ts, decimal t.digits ≤ u64Max) ∧ s = renderTerms ts ++ rest ∧
        Boundary rest ∧ d'.Wf ∧ d'.toNanos = totalNanos ts ∧ Stop rest d' o := by
  have he : durationParse s = durationLoop s.length s ⟨0, 0⟩ := by
    unfold durationParse; rw [if_neg (by simpa using hs)]
  have h0 : Duration.Wf ⟨0, 0⟩ := by simp [Duration.Wf]
  have h0' : Duration.toNanos ⟨0, 0⟩ = 0 := rfl
  rw [he]
  constructor
  · rintro rfl
    obtain ⟨ts, rest, d', h1, h2, h3, hb', h4, h5, h6⟩ := durationLoop_run s.length s _ (Nat.le_refl _) h0 hb
    exact ⟨ts, rest, d', h1, h2, h3, hb', h4, by omega, h6⟩
  · rintro ⟨ts, rest, d', h1, h2, h3, hb', h4, h5, h6⟩
    have hlen := length_le_render h1
    have hl : s.length = (renderTerms ts).length + rest.length := by rw [h3, List.length_append]
    have hsum : Duration.toNanos ⟨0, 0⟩ + totalNanos ts < (u64Max + 1) * 1000000000 := by
      simp only [Duration.Wf, Duration.toNanos] at h4 h5 ⊢
      omega
    obtain ⟨d'', e1, e2, e3⟩ := durationLoop_terms h1 h2 hb' h0 hsum (s.length - ts.length)
    have : ts.length + (s.length - ts.length) = s.length := by omega
    rw [this, ← h3] at e3
    have hd : d'' = d' := Duration.ext_nanos e1 h4 (by omega)
    rw [e3, hd]
    refine durationLoop_stop h4 h6 (fun hr => ?_)
    have := List.length_pos_iff.2 hr
    omega

/-- `parse` of a string that starts with something else than a digit. -/
theorem durationParse_noDigits {c : Char} {cs : Str} (hc : isDigit c = false) :
    durationParse (c :: cs) = .err (.noDigits (c :: cs)) := by
  unfold durationParse
  rw [if_neg (by simp)]
  exact durationLoop_stop (by simp [Duration.Wf]) (.noDigits rfl hc) (by simp)

end Compose
