import Verif.Spec.Healthcheck
import Verif.Props.Resource
import Verif.Props.Numbers

namespace Props
open Rust Compose Spec

/-! ### C53, C54: health checks -/

theorem valuesOf_eq {key : Str} {v : Content} {es : List (Str × Content)} :
    valuesOf key ((key, v) :: es) = v :: valuesOf key es := by
  simp [valuesOf]

theorem valuesOf_ne {key k : Str} {v : Content} {es : List (Str × Content)} (h : k ≠ key) :
    valuesOf key ((k, v) :: es) = valuesOf key es := by
  simp [valuesOf, h]

/-- How a field of the decoder's state changes over the values given for it. -/
private def Acc {α : Type} (denotes : Content → α → Prop) (old new : Option α) (vs : List Content) : Prop :=
  (vs = [] ∧ new = old) ∨ ∃ v x, vs = [v] ∧ old = none ∧ denotes v x ∧ new = some x

private theorem acc_cons {α : Type} {denotes : Content → α → Prop} {old new : Option α} {v : Content} {vs : List Content} :
    Acc denotes old new (v :: vs) ↔ old = none ∧ ∃ x, denotes v x ∧ Acc denotes (some x) new vs := by
  unfold Acc
  constructor
  · rintro (⟨h, -⟩ | ⟨v', x, h, h1, h2, h3⟩)
    · cases h
    · cases h; exact ⟨h1, x, h2, .inl ⟨rfl, h3⟩⟩
  · rintro ⟨h1, x, h2, ⟨rfl, h3⟩ | ⟨_, _, _, h, _⟩⟩
    · exact .inr ⟨v, x, rfl, h1, h2, h3⟩
    · cases h

private theorem acc_init {α : Type} {denotes : Content → α → Prop} {new : Option α} {key : Str}
    {es : List (Str × Content)} : Acc denotes none new (valuesOf key es) ↔ OptField es key denotes new := by
  unfold Acc OptField
  simp

/-- The part of the decoder's loop about `disable` and `test`. -/
private def runDT : Option Bool → Option Test → List (Str × Content) → Option (Option Bool × Option Test)
  | d, t, [] => some (d, t)
  | d, t, (k, v) :: l =>
    if k = "disable".toList then
      if d.isSome then none else (deBool v).bind fun b => runDT (some b) t l
    else if t.isSome then none else (disableOrTest d t v).bind fun q => runDT q.1 q.2 l

/-- The entries for `disable` and `test`. -/
private def dtOf (es : List (Str × Content)) : List (Str × Content) :=
  es.filter fun e => e.1 = "disable".toList ∨ e.1 = "test".toList

private structure RunRel (s : HealthState) (es : List (Str × Content)) (s' : HealthState) : Prop where
  keys : ∀ e ∈ es, e.1 ∈ healthKeys ∨ ExtensionKey e.1
  dt : runDT s.disable s.test (dtOf es) = some (s'.disable, s'.test)
  interval : Acc DurationValue s.interval s'.interval (valuesOf "interval".toList es)
  timeout : Acc DurationValue s.timeout s'.timeout (valuesOf "timeout".toList es)
  retries : Acc U64Value s.retries s'.retries (valuesOf "retries".toList es)
  startPeriod : Acc DurationValue s.startPeriod s'.startPeriod (valuesOf "start_period".toList es)
  startInterval : Acc DurationValue s.startInterval s'.startInterval (valuesOf "start_interval".toList es)
  extensions : s'.extensions = s.extensions ++ es.filter (·.1 ∉ healthKeys)
  distinct : (s'.extensions.map (·.1)).Nodup

private theorem u64Value_iff {v : Content} {n : Nat} : U64Value v n ↔ deUnsigned u64Max v = some n := by
  rw [deUnsigned_iff]
  unfold U64Value IsInteger
  have : u64Max = 2 ^ 64 - 1 := rfl
  constructor
  · rintro ⟨h | ⟨_, h⟩, h2⟩
    · exact ⟨by omega, .inr h⟩
    · exact ⟨by omega, .inl (by simpa using h)⟩
  · rintro ⟨h, h2 | h2⟩
    · exact ⟨.inr ⟨by omega, by simpa using h2⟩, by omega⟩
    · exact ⟨.inl h2, by omega⟩

private theorem deserializeDuration_some {v : Content} {o : Option Duration} (h : deserializeDuration v = .ok o) :
    ∃ d, o = some d := by
  cases v with
  | u64 n => simp only [deserializeDuration] at h; split at h <;> cases h; exact ⟨_, rfl⟩
  | i64 n => simp only [deserializeDuration] at h; split at h <;> cases h; exact ⟨_, rfl⟩
  | str s => simp only [deserializeDuration] at h; split at h <;> cases h; exact ⟨_, rfl⟩
  | _ => cases h

theorem durationValue_iff {v : Content} {d : Duration} : deserializeDuration v = .ok (some d) ↔ DurationValue v d := by
  rw [C68_duration_field.2]
  constructor
  · rintro (⟨n, d, h1, h2, h3, h, h4, h5⟩ | ⟨s, d, rfl, h1, h⟩)
    · cases h
      obtain ⟨n, rfl⟩ := Int.eq_ofNat_of_zero_le h2
      exact .micros h1 (by omega) h4 (by omega)
    · cases h; exact .text ((C08_duration_accepts _ _).1 h1)
  · intro h
    cases h with
    | @micros _ n _ h1 h2 h3 h4 => exact .inl ⟨n, d, h1, by omega, by omega, rfl, h3, by omega⟩
    | @text s _ h => exact .inr ⟨s, d, rfl, (C08_duration_accepts _ _).2 h, rfl⟩

private theorem durationOnce_iff {old new : Option Duration} {v : Content} :
    durationOnce old v = .ok new ↔ old = none ∧ ∃ d, DurationValue v d ∧ new = some d := by
  unfold durationOnce
  simp only [← durationValue_iff]
  cases old with
  | some d => simp
  | none =>
    simp only [Option.isSome_none, Bool.false_eq_true, if_false, true_and]
    constructor
    · intro h; obtain ⟨d, rfl⟩ := deserializeDuration_some h; exact ⟨d, h, rfl⟩
    · rintro ⟨d, h, rfl⟩; exact h

private theorem run_cons {s s' : HealthState} {e : Str × Content} {es : List (Str × Content)} :
    HealthState.run s (e :: es) = .ok s' ↔ ∃ s1, s.step e = .ok s1 ∧ s1.run es = .ok s' := by
  rw [HealthState.run]
  cases s.step e <;> simp

private theorem ext_filter_known {k : Str} (h : k ∈ healthKeys) {v : Content} {es : List (Str × Content)} :
    ((k, v) :: es).filter (·.1 ∉ healthKeys) = es.filter (·.1 ∉ healthKeys) :=
  List.filter_cons_of_neg (by simpa using h)

private theorem dtOf_other {k : Str} (h1 : k ≠ "disable".toList) (h2 : k ≠ "test".toList) {v : Content}
    {es : List (Str × Content)} : dtOf ((k, v) :: es) = dtOf es :=
  List.filter_cons_of_neg (by simp only [decide_eq_true_eq]; rintro (h | h) <;> contradiction)

private theorem dtOf_disable {v : Content} {es : List (Str × Content)} :
    dtOf (("disable".toList, v) :: es) = ("disable".toList, v) :: dtOf es :=
  List.filter_cons_of_pos (by simp only [decide_eq_true_eq, true_or, or_true])

private theorem dtOf_test {v : Content} {es : List (Str × Content)} :
    dtOf (("test".toList, v) :: es) = ("test".toList, v) :: dtOf es :=
  List.filter_cons_of_pos (by simp only [decide_eq_true_eq, true_or, or_true])

private theorem ne_of_extension {k : Str} (h : k ∉ healthKeys) :
    k ≠ "disable".toList ∧ k ≠ "test".toList ∧ k ≠ "interval".toList ∧ k ≠ "timeout".toList ∧ k ≠ "retries".toList ∧
      k ≠ "start_period".toList ∧ k ≠ "start_interval".toList := by
  refine ⟨?_, ?_, ?_, ?_, ?_, ?_, ?_⟩ <;> · rintro rfl; exact h (by decide)

private theorem keys_cons {k : Str} {v : Content} {es : List (Str × Content)} (h : k ∈ healthKeys) :
    (∀ e ∈ (k, v) :: es, e.1 ∈ healthKeys ∨ ExtensionKey e.1) ↔ ∀ e ∈ es, e.1 ∈ healthKeys ∨ ExtensionKey e.1 := by
  simp only [List.forall_mem_cons, h, true_or, true_and]

private theorem rel_interval {s s' : HealthState} {v : Content} {es : List (Str × Content)} :
    RunRel s (("interval".toList, v) :: es) s' ↔
      s.interval = none ∧ ∃ x, DurationValue v x ∧ RunRel { s with interval := some x } es s' := by
  constructor
  · intro h
    have ha := h.interval
    rw [valuesOf_eq, acc_cons] at ha
    obtain ⟨h0, x, hx, ha⟩ := ha
    refine ⟨h0, x, hx, ?_⟩
    exact
      { keys := (keys_cons (by decide)).1 h.keys
        dt := (congrArg _ (dtOf_other (by decide) (by decide))).symm.trans h.dt
        interval := ha
        timeout := (valuesOf_ne (key := "timeout".toList) (k := "interval".toList) (es := es) (by decide)) ▸ h.timeout
        retries := (valuesOf_ne (key := "retries".toList) (k := "interval".toList) (es := es) (by decide)) ▸ h.retries
        startPeriod := (valuesOf_ne (key := "start_period".toList) (k := "interval".toList) (es := es) (by decide)) ▸ h.startPeriod
        startInterval := (valuesOf_ne (key := "start_interval".toList) (k := "interval".toList) (es := es) (by decide)) ▸ h.startInterval
        extensions := h.extensions.trans (congrArg _ (ext_filter_known (by decide)))
        distinct := h.distinct }
  · rintro ⟨h0, x, hx, h⟩
    exact
      { keys := (keys_cons (by decide)).2 h.keys
        dt := (congrArg _ (dtOf_other (by decide) (by decide))).trans h.dt
        interval := by rw [valuesOf_eq, acc_cons]; exact ⟨h0, x, hx, h.interval⟩
        timeout := (valuesOf_ne (key := "timeout".toList) (k := "interval".toList) (es := es) (by decide)).symm ▸ h.timeout
        retries := (valuesOf_ne (key := "retries".toList) (k := "interval".toList) (es := es) (by decide)).symm ▸ h.retries
        startPeriod := (valuesOf_ne (key := "start_period".toList) (k := "interval".toList) (es := es) (by decide)).symm ▸ h.startPeriod
        startInterval := (valuesOf_ne (key := "start_interval".toList) (k := "interval".toList) (es := es) (by decide)).symm ▸ h.startInterval
        extensions := h.extensions.trans (congrArg _ (ext_filter_known (by decide)).symm)
        distinct := h.distinct }

private theorem rel_timeout {s s' : HealthState} {v : Content} {es : List (Str × Content)} :
    RunRel s (("timeout".toList, v) :: es) s' ↔
      s.timeout = none ∧ ∃ x, DurationValue v x ∧ RunRel { s with timeout := some x } es s' := by
  constructor
  · intro h
    have ha := h.timeout
    rw [valuesOf_eq, acc_cons] at ha
    obtain ⟨h0, x, hx, ha⟩ := ha
    refine ⟨h0, x, hx, ?_⟩
    exact
      { keys := (keys_cons (by decide)).1 h.keys
        dt := (congrArg _ (dtOf_other (by decide) (by decide))).symm.trans h.dt
        interval := (valuesOf_ne (key := "interval".toList) (k := "timeout".toList) (es := es) (by decide)) ▸ h.interval
        timeout := ha
        retries := (valuesOf_ne (key := "retries".toList) (k := "timeout".toList) (es := es) (by decide)) ▸ h.retries
        startPeriod := (valuesOf_ne (key := "start_period".toList) (k := "timeout".toList) (es := es) (by decide)) ▸ h.startPeriod
        startInterval := (valuesOf_ne (key := "start_interval".toList) (k := "timeout".toList) (es := es) (by decide)) ▸ h.startInterval
        extensions := h.extensions.trans (congrArg _ (ext_filter_known (by decide)))
        distinct := h.distinct }
  · rintro ⟨h0, x, hx, h⟩
    exact
      { keys := (keys_cons (by decide)).2 h.keys
        dt := (congrArg _ (dtOf_other (by decide) (by decide))).trans h.dt
        interval := (valuesOf_ne (key := "interval".toList) (k := "timeout".toList) (es := es) (by decide)).symm ▸ h.interval
        timeout := by rw [valuesOf_eq, acc_cons]; exact ⟨h0, x, hx, h.timeout⟩
        retries := (valuesOf_ne (key := "retries".toList) (k := "timeout".toList) (es := es) (by decide)).symm ▸ h.retries
        startPeriod := (valuesOf_ne (key := "start_period".toList) (k := "timeout".toList) (es := es) (by decide)).symm ▸ h.startPeriod
        startInterval := (valuesOf_ne (key := "start_interval".toList) (k := "timeout".toList) (es := es) (by decide)).symm ▸ h.startInterval
        extensions := h.extensions.trans (congrArg _ (ext_filter_known (by decide)).symm)
        distinct := h.distinct }

private theorem rel_retries {s s' : HealthState} {v : Content} {es : List (Str × Content)} :
    RunRel s (("retries".toList, v) :: es) s' ↔
      s.retries = none ∧ ∃ x, U64Value v x ∧ RunRel { s with retries := some x } es s' := by
  constructor
  · intro h
    have ha := h.retries
    rw [valuesOf_eq, acc_cons] at ha
    obtain ⟨h0, x, hx, ha⟩ := ha
    refine ⟨h0, x, hx, ?_⟩
    exact
      { keys := (keys_cons (by decide)).1 h.keys
        dt := (congrArg _ (dtOf_other (by decide) (by decide))).symm.trans h.dt
        interval := (valuesOf_ne (key := "interval".toList) (k := "retries".toList) (es := es) (by decide)) ▸ h.interval
        timeout := (valuesOf_ne (key := "timeout".toList) (k := "retries".toList) (es := es) (by decide)) ▸ h.timeout
        retries := ha
        startPeriod := (valuesOf_ne (key := "start_period".toList) (k := "retries".toList) (es := es) (by decide)) ▸ h.startPeriod
        startInterval := (valuesOf_ne (key := "start_interval".toList) (k := "retries".toList) (es := es) (by decide)) ▸ h.startInterval
        extensions := h.extensions.trans (congrArg _ (ext_filter_known (by decide)))
        distinct := h.distinct }
  · rintro ⟨h0, x, hx, h⟩
    exact
      { keys := (keys_cons (by decide)).2 h.keys
        dt := (congrArg _ (dtOf_other (by decide) (by decide))).trans h.dt
        interval := (valuesOf_ne (key := "interval".toList) (k := "retries".toList) (es := es) (by decide)).symm ▸ h.interval
        timeout := (valuesOf_ne (key := "timeout".toList) (k := "retries".toList) (es := es) (by decide)).symm ▸ h.timeout
        retries := by rw [valuesOf_eq, acc_cons]; exact ⟨h0, x, hx, h.retries⟩
        startPeriod := (valuesOf_ne (key := "start_period".toList) (k := "retries".toList) (es := es) (by decide)).symm ▸ h.startPeriod
        startInterval := (valuesOf_ne (key := "start_interval".toList) (k := "retries".toList) (es := es) (by decide)).symm ▸ h.startInterval
        extensions := h.extensions.trans (congrArg _ (ext_filter_known (by decide)).symm)
        distinct := h.distinct }

private theorem rel_startPeriod {s s' : HealthState} {v : Content} {es : List (Str × Content)} :
    RunRel s (("start_period".toList, v) :: es) s' ↔
      s.startPeriod = none ∧ ∃ x, DurationValue v x ∧ RunRel { s with startPeriod := some x } es s' := by
  constructor
  · intro h
    have ha := h.startPeriod
    rw [valuesOf_eq, acc_cons] at ha
    obtain ⟨h0, x, hx, ha⟩ := ha
    refine ⟨h0, x, hx, ?_⟩
    exact
      { keys := (keys_cons (by decide)).1 h.keys
        dt := (congrArg _ (dtOf_other (by decide) (by decide))).symm.trans h.dt
        interval := (valuesOf_ne (key := "interval".toList) (k := "start_period".toList) (es := es) (by decide)) ▸ h.interval
        timeout := (valuesOf_ne (key := "timeout".toList) (k := "start_period".toList) (es := es) (by decide)) ▸ h.timeout
        retries := (valuesOf_ne (key := "retries".toList) (k := "start_period".toList) (es := es) (by decide)) ▸ h.retries
        startPeriod := ha
        startInterval := (valuesOf_ne (key := "start_interval".toList) (k := "start_period".toList) (es := es) (by decide)) ▸ h.startInterval
        extensions := h.extensions.trans (congrArg _ (ext_filter_known (by decide)))
        distinct := h.distinct }
  · rintro ⟨h0, x, hx, h⟩
    exact
      { keys := (keys_cons (by decide)).2 h.keys
        dt := (congrArg _ (dtOf_other (by decide) (by decide))).trans h.dt
        interval := (valuesOf_ne (key := "interval".toList) (k := "start_period".toList) (es := es) (by decide)).symm ▸ h.interval
        timeout := (valuesOf_ne (key := "timeout".toList) (k := "start_period".toList) (es := es) (by decide)).symm ▸ h.timeout
        retries := (valuesOf_ne (key := "retries".toList) (k := "start_period".toList) (es := es) (by decide)).symm ▸ h.retries
        startPeriod := by rw [valuesOf_eq, acc_cons]; exact ⟨h0, x, hx, h.startPeriod⟩
        startInterval := (valuesOf_ne (key := "start_interval".toList) (k := "start_period".toList) (es := es) (by decide)).symm ▸ h.startInterval
        extensions := h.extensions.trans (congrArg _ (ext_filter_known (by decide)).symm)
        distinct := h.distinct }

private theorem rel_startInterval {s s' : HealthState} {v : Content} {es : List (Str × Content)} :
    RunRel s (("start_interval".toList, v) :: es) s' ↔
      s.startInterval = none ∧ ∃ x, DurationValue v x ∧ RunRel { s with startInterval := some x } es s' := by
  constructor
  · intro h
    have ha := h.startInterval
    rw [valuesOf_eq, acc_cons] at ha
    obtain ⟨h0, x, hx, ha⟩ := ha
    refine ⟨h0, x, hx, ?_⟩
    exact
      { keys := (keys_cons (by decide)).1 h.keys
        dt := (congrArg _ (dtOf_other (by decide) (by decide))).symm.trans h.dt
        interval := (valuesOf_ne (key := "interval".toList) (k := "start_interval".toList) (es := es) (by decide)) ▸ h.interval
        timeout := (valuesOf_ne (key := "timeout".toList) (k := "start_interval".toList) (es := es) (by decide)) ▸ h.timeout
        retries := (valuesOf_ne (key := "retries".toList) (k := "start_interval".toList) (es := es) (by decide)) ▸ h.retries
        startPeriod := (valuesOf_ne (key := "start_period".toList) (k := "start_interval".toList) (es := es) (by decide)) ▸ h.startPeriod
        startInterval := ha
        extensions := h.extensions.trans (congrArg _ (ext_filter_known (by decide)))
        distinct := h.distinct }
  · rintro ⟨h0, x, hx, h⟩
    exact
      { keys := (keys_cons (by decide)).2 h.keys
        dt := (congrArg _ (dtOf_other (by decide) (by decide))).trans h.dt
        interval := (valuesOf_ne (key := "interval".toList) (k := "start_interval".toList) (es := es) (by decide)).symm ▸ h.interval
        timeout := (valuesOf_ne (key := "timeout".toList) (k := "start_interval".toList) (es := es) (by decide)).symm ▸ h.timeout
        retries := (valuesOf_ne (key := "retries".toList) (k := "start_interval".toList) (es := es) (by decide)).symm ▸ h.retries
        startPeriod := (valuesOf_ne (key := "start_period".toList) (k := "start_interval".toList) (es := es) (by decide)).symm ▸ h.startPeriod
        startInterval := by rw [valuesOf_eq, acc_cons]; exact ⟨h0, x, hx, h.startInterval⟩
        extensions := h.extensions.trans (congrArg _ (ext_filter_known (by decide)).symm)
        distinct := h.distinct }

private theorem rel_disable {s s' : HealthState} {v : Content} {es : List (Str × Content)} :
    RunRel s (("disable".toList, v) :: es) s' ↔
      s.disable = none ∧ ∃ b, deBool v = some b ∧ RunRel { s with disable := some b } es s' := by
  constructor
  · intro h
    have ha := h.dt
    rw [dtOf_disable, runDT] at ha
    rw [if_pos rfl] at ha
    cases hd : s.disable with
    | some b => rw [hd] at ha; simp at ha
    | none =>
      rw [hd] at ha
      simp only [Option.isSome_none, Bool.false_eq_true, if_false, Option.bind_eq_some_iff] at ha
      obtain ⟨b, hb, ha⟩ := ha
      refine ⟨rfl, b, hb, ?_⟩
      exact
        { keys := (keys_cons (by decide)).1 h.keys
          dt := ha
          interval := (valuesOf_ne (key := "interval".toList) (k := "disable".toList) (es := es) (by decide)) ▸ h.interval
          timeout := (valuesOf_ne (key := "timeout".toList) (k := "disable".toList) (es := es) (by decide)) ▸ h.timeout
          retries := (valuesOf_ne (key := "retries".toList) (k := "disable".toList) (es := es) (by decide)) ▸ h.retries
          startPeriod := (valuesOf_ne (key := "start_period".toList) (k := "disable".toList) (es := es) (by decide)) ▸ h.startPeriod
          startInterval := (valuesOf_ne (key := "start_interval".toList) (k := "disable".toList) (es := es) (by decide)) ▸ h.startInterval
          extensions := h.extensions.trans (congrArg _ (ext_filter_known (by decide)))
          distinct := h.distinct }
  · rintro ⟨h0, b, hb, h⟩
    exact
      { keys := (keys_cons (by decide)).2 h.keys
        dt := by rw [dtOf_disable, runDT, if_pos rfl, h0, hb]; exact h.dt
        interval := (valuesOf_ne (key := "interval".toList) (k := "disable".toList) (es := es) (by decide)).symm ▸ h.interval
        timeout := (valuesOf_ne (key := "timeout".toList) (k := "disable".toList) (es := es) (by decide)).symm ▸ h.timeout
        retries := (valuesOf_ne (key := "retries".toList) (k := "disable".toList) (es := es) (by decide)).symm ▸ h.retries
        startPeriod := (valuesOf_ne (key := "start_period".toList) (k := "disable".toList) (es := es) (by decide)).symm ▸ h.startPeriod
        startInterval := (valuesOf_ne (key := "start_interval".toList) (k := "disable".toList) (es := es) (by decide)).symm ▸ h.startInterval
        extensions := h.extensions.trans (congrArg _ (ext_filter_known (by decide)).symm)
        distinct := h.distinct }

private theorem rel_test {s s' : HealthState} {v : Content} {es : List (Str × Content)} :
    RunRel s (("test".toList, v) :: es) s' ↔
      s.test = none ∧ ∃ d t, disableOrTest s.disable s.test v = some (d, t) ∧
        RunRel { s with disable := d, test := t } es s' := by
  constructor
  · intro h
    have ha := h.dt
    rw [dtOf_test, runDT] at ha
    rw [if_neg (by decide)] at ha
    cases hd : s.test with
    | some b => rw [hd] at ha; simp at ha
    | none =>
      rw [hd] at ha
      simp only [Option.isSome_none, Bool.false_eq_true, if_false, Option.bind_eq_some_iff] at ha
      obtain ⟨⟨d, t⟩, hb, ha⟩ := ha
      refine ⟨rfl, d, t, hb, ?_⟩
      exact
        { keys := (keys_cons (by decide)).1 h.keys
          dt := ha
          interval := (valuesOf_ne (key := "interval".toList) (k := "test".toList) (es := es) (by decide)) ▸ h.interval
          timeout := (valuesOf_ne (key := "timeout".toList) (k := "test".toList) (es := es) (by decide)) ▸ h.timeout
          retries := (valuesOf_ne (key := "retries".toList) (k := "test".toList) (es := es) (by decide)) ▸ h.retries
          startPeriod := (valuesOf_ne (key := "start_period".toList) (k := "test".toList) (es := es) (by decide)) ▸ h.startPeriod
          startInterval := (valuesOf_ne (key := "start_interval".toList) (k := "test".toList) (es := es) (by decide)) ▸ h.startInterval
          extensions := h.extensions.trans (congrArg _ (ext_filter_known (by decide)))
          distinct := h.distinct }
  · rintro ⟨h0, d, t, hb, h⟩
    exact
      { keys := (keys_cons (by decide)).2 h.keys
        dt := by rw [dtOf_test, runDT, if_neg (by decide), h0, (by rw [← h0]; exact hb : disableOrTest s.disable none v = some (d, t))]; exact h.dt
        interval := (valuesOf_ne (key := "interval".toList) (k := "test".toList) (es := es) (by decide)).symm ▸ h.interval
        timeout := (valuesOf_ne (key := "timeout".toList) (k := "test".toList) (es := es) (by decide)).symm ▸ h.timeout
        retries := (valuesOf_ne (key := "retries".toList) (k := "test".toList) (es := es) (by decide)).symm ▸ h.retries
        startPeriod := (valuesOf_ne (key := "start_period".toList) (k := "test".toList) (es := es) (by decide)).symm ▸ h.startPeriod
        startInterval := (valuesOf_ne (key := "start_interval".toList) (k := "test".toList) (es := es) (by decide)).symm ▸ h.startInterval
        extensions := h.extensions.trans (congrArg _ (ext_filter_known (by decide)).symm)
        distinct := h.distinct }

private theorem rel_extension {s s' : HealthState} {k : Str} (hk : k ∉ healthKeys) {v : Content}
    {es : List (Str × Content)} :
    RunRel s ((k, v) :: es) s' ↔
      ExtensionKey k ∧ k ∉ s.extensions.map (·.1) ∧ RunRel { s with extensions := s.extensions ++ [(k, v)] } es s' := by
  obtain ⟨n1, n2, n3, n4, n5, n6, n7⟩ := ne_of_extension hk
  have hf : ((k, v) :: es).filter (·.1 ∉ healthKeys) = (k, v) :: es.filter (·.1 ∉ healthKeys) :=
    List.filter_cons_of_pos (by simpa using hk)
  constructor
  · intro h
    have he := h.extensions
    rw [hf] at he
    have hd := h.distinct
    rw [he, List.map_append, List.nodup_append] at hd
    refine ⟨(h.keys (k, v) (by simp)).resolve_left hk, fun hm => hd.2.2 _ hm k (by simp) rfl, ?_⟩
    exact
      { keys := fun e he => h.keys e (by simp [he])
        dt := (congrArg _ (dtOf_other n1 n2)).symm.trans h.dt
        interval := (valuesOf_ne (es := es) n3) ▸ h.interval
        timeout := (valuesOf_ne (es := es) n4) ▸ h.timeout
        retries := (valuesOf_ne (es := es) n5) ▸ h.retries
        startPeriod := (valuesOf_ne (es := es) n6) ▸ h.startPeriod
        startInterval := (valuesOf_ne (es := es) n7) ▸ h.startInterval
        extensions := by rw [he]; simp
        distinct := h.distinct }
  · rintro ⟨h1, h2, h⟩
    exact
      { keys := by
          intro e he
          rcases List.mem_cons.1 he with rfl | he
          · exact .inr h1
          · exact h.keys e he
        dt := (congrArg _ (dtOf_other n1 n2)).trans h.dt
        interval := (valuesOf_ne (es := es) n3).symm ▸ h.interval
        timeout := (valuesOf_ne (es := es) n4).symm ▸ h.timeout
        retries := (valuesOf_ne (es := es) n5).symm ▸ h.retries
        startPeriod := (valuesOf_ne (es := es) n6).symm ▸ h.startPeriod
        startInterval := (valuesOf_ne (es := es) n7).symm ▸ h.startInterval
        extensions := by rw [hf, h.extensions]; simp
        distinct := h.distinct }

private theorem run_iff {s s' : HealthState} {es : List (Str × Content)} (hs : (s.extensions.map (·.1)).Nodup) :
    HealthState.run s es = .ok s' ↔ RunRel s es s' := by
  induction es generalizing s with
  | nil =>
    rw [HealthState.run]
    constructor
    · intro h
      cases h
      exact
        { keys := by simp
          dt := rfl
          interval := .inl ⟨rfl, rfl⟩
          timeout := .inl ⟨rfl, rfl⟩
          retries := .inl ⟨rfl, rfl⟩
          startPeriod := .inl ⟨rfl, rfl⟩
          startInterval := .inl ⟨rfl, rfl⟩
          extensions := by simp
          distinct := hs }
    · intro h
      have hd := h.dt
      simp only [dtOf, List.filter_nil, runDT, Option.some.injEq, Prod.mk.injEq] at hd
      have he := h.extensions
      simp only [List.filter_nil, List.append_nil] at he
      have hacc : ∀ {α : Type} {R : Content → α → Prop} {o n : Option α} {k : Str}, Acc R o n (valuesOf k []) → n = o := by
        rintro α R o n k (⟨-, h⟩ | ⟨_, _, h, _⟩)
        · exact h
        · cases h
      obtain ⟨d, t, i, tm, r, sp, si, e⟩ := s
      obtain ⟨d', t', i', tm', r', sp', si', e'⟩ := s'
      have h1 := hacc h.interval
      have h2 := hacc h.timeout
      have h3 := hacc h.retries
      have h4 := hacc h.startPeriod
      have h5 := hacc h.startInterval
      simp only at hd he h1 h2 h3 h4 h5
      rw [hd.1, hd.2, he, h1, h2, h3, h4, h5]
  | cons e es ih =>
    obtain ⟨k, v⟩ := e
    rw [run_cons]
    by_cases k_disable : k = "disable".toList
    · subst k_disable
      rw [rel_disable]
      have hst : s.step ("disable".toList, v) = if s.disable.isSome then .err ()
        else match deBool v with
          | some b => .ok { s with disable := some b }
          | none => .err () := rfl
      rw [hst]
      cases h0 : s.disable with
      | some _ => simp
      | none =>
        simp only [Option.isSome_none, Bool.false_eq_true, if_false, true_and]
        constructor
        · rintro ⟨s1, h1, h2⟩
          cases hd : deBool v with
          | none => rw [hd] at h1; cases h1
          | some n =>
            rw [hd] at h1
            cases h1
            exact ⟨n, rfl, (ih (by exact hs)).1 h2⟩
        · rintro ⟨x, h2, h3⟩
          exact ⟨_, by rw [h2], (ih (by exact hs)).2 h3⟩
    by_cases k_test : k = "test".toList
    · subst k_test
      rw [rel_test]
      have hst : s.step ("test".toList, v) = if s.test.isSome then .err ()
        else match disableOrTest s.disable s.test v with
          | some (d, t) => .ok { s with disable := d, test := t }
          | none => .err () := rfl
      rw [hst]
      cases h0 : s.test with
      | some _ => simp
      | none =>
        simp only [Option.isSome_none, Bool.false_eq_true, if_false, true_and]
        constructor
        · rintro ⟨s1, h1, h2⟩
          cases hd : disableOrTest s.disable none v with
          | none => rw [hd] at h1; cases h1
          | some q =>
            obtain ⟨d, t⟩ := q
            rw [hd] at h1
            cases h1
            exact ⟨d, t, rfl, (ih (by exact hs)).1 h2⟩
        · rintro ⟨d, t, h2, h3⟩
          exact ⟨_, by rw [h2], (ih (by exact hs)).2 h3⟩
    by_cases k_interval : k = "interval".toList
    · subst k_interval
      rw [rel_interval]
      have hst : s.step ("interval".toList, v) = match durationOnce s.interval v with
        | .ok d => .ok { s with interval := d }
        | .err e => .err e
        | .panic => .panic := rfl
      constructor
      · rintro ⟨s1, h1, h2⟩
        rw [hst] at h1
        cases hd : durationOnce s.interval v with
        | ok d =>
          rw [hd] at h1
          obtain ⟨h3, x, h4, rfl⟩ := durationOnce_iff.1 hd
          cases h1
          exact ⟨h3, x, h4, (ih (by exact hs)).1 h2⟩
        | err e => rw [hd] at h1; cases h1
        | panic => rw [hd] at h1; cases h1
      · rintro ⟨h1, x, h2, h3⟩
        exact ⟨_, by rw [hst, durationOnce_iff.2 ⟨h1, x, h2, rfl⟩], (ih (by exact hs)).2 h3⟩
    by_cases k_timeout : k = "timeout".toList
    · subst k_timeout
      rw [rel_timeout]
      have hst : s.step ("timeout".toList, v) = match durationOnce s.timeout v with
        | .ok d => .ok { s with timeout := d }
        | .err e => .err e
        | .panic => .panic := rfl
      constructor
      · rintro ⟨s1, h1, h2⟩
        rw [hst] at h1
        cases hd : durationOnce s.timeout v with
        | ok d =>
          rw [hd] at h1
          obtain ⟨h3, x, h4, rfl⟩ := durationOnce_iff.1 hd
          cases h1
          exact ⟨h3, x, h4, (ih (by exact hs)).1 h2⟩
        | err e => rw [hd] at h1; cases h1
        | panic => rw [hd] at h1; cases h1
      · rintro ⟨h1, x, h2, h3⟩
        exact ⟨_, by rw [hst, durationOnce_iff.2 ⟨h1, x, h2, rfl⟩], (ih (by exact hs)).2 h3⟩
    by_cases k_retries : k = "retries".toList
    · subst k_retries
      rw [rel_retries]
      have hst : s.step ("retries".toList, v) = if s.retries.isSome then .err ()
        else match deUnsigned u64Max v with
          | some n => .ok { s with retries := some n }
          | none => .err () := rfl
      rw [hst]
      cases h0 : s.retries with
      | some _ => simp
      | none =>
        simp only [Option.isSome_none, Bool.false_eq_true, if_false, true_and]
        constructor
        · rintro ⟨s1, h1, h2⟩
          cases hd : deUnsigned u64Max v with
          | none => rw [hd] at h1; cases h1
          | some n =>
            rw [hd] at h1
            cases h1
            exact ⟨n, u64Value_iff.2 hd, (ih (by exact hs)).1 h2⟩
        · rintro ⟨x, h2, h3⟩
          exact ⟨_, by rw [u64Value_iff.1 h2], (ih (by exact hs)).2 h3⟩
    by_cases k_start_period : k = "start_period".toList
    · subst k_start_period
      rw [rel_startPeriod]
      have hst : s.step ("start_period".toList, v) = match durationOnce s.startPeriod v with
        | .ok d => .ok { s with startPeriod := d }
        | .err e => .err e
        | .panic => .panic := rfl
      constructor
      · rintro ⟨s1, h1, h2⟩
        rw [hst] at h1
        cases hd : durationOnce s.startPeriod v with
        | ok d =>
          rw [hd] at h1
          obtain ⟨h3, x, h4, rfl⟩ := durationOnce_iff.1 hd
          cases h1
          exact ⟨h3, x, h4, (ih (by exact hs)).1 h2⟩
        | err e => rw [hd] at h1; cases h1
        | panic => rw [hd] at h1; cases h1
      · rintro ⟨h1, x, h2, h3⟩
        exact ⟨_, by rw [hst, durationOnce_iff.2 ⟨h1, x, h2, rfl⟩], (ih (by exact hs)).2 h3⟩
    by_cases k_start_interval : k = "start_interval".toList
    · subst k_start_interval
      rw [rel_startInterval]
      have hst : s.step ("start_interval".toList, v) = match durationOnce s.startInterval v with
        | .ok d => .ok { s with startInterval := d }
        | .err e => .err e
        | .panic => .panic := rfl
      constructor
      · rintro ⟨s1, h1, h2⟩
        rw [hst] at h1
        cases hd : durationOnce s.startInterval v with
        | ok d =>
          rw [hd] at h1
          obtain ⟨h3, x, h4, rfl⟩ := durationOnce_iff.1 hd
          cases h1
          exact ⟨h3, x, h4, (ih (by exact hs)).1 h2⟩
        | err e => rw [hd] at h1; cases h1
        | panic => rw [hd] at h1; cases h1
      · rintro ⟨h1, x, h2, h3⟩
        exact ⟨_, by rw [hst, durationOnce_iff.2 ⟨h1, x, h2, rfl⟩], (ih (by exact hs)).2 h3⟩
    have hk : k ∉ healthKeys := by
      simp only [healthKeys, List.mem_cons, List.not_mem_nil, or_false, not_or]
      exact ⟨k_disable, k_test, k_interval, k_timeout, k_retries, k_start_period, k_start_interval⟩
    rw [rel_extension hk]
    have hst : s.step (k, v) = match extensionKeyNew k with
        | .error _ => .err ()
        | .ok key =>
          if (IndexMap.get s.extensions key).isSome then .err ()
          else .ok { s with extensions := IndexMap.insert s.extensions key v } := by
      unfold HealthState.step
      simp only
      rw [if_neg k_disable, if_neg k_test, if_neg k_interval, if_neg k_timeout, if_neg k_retries, if_neg k_start_period,
        if_neg k_start_interval]
      cases extensionKeyNew k <;> rfl
    rw [hst]
    constructor
    · rintro ⟨s1, h1, h2⟩
      cases he : extensionKeyNew k with
      | error e => rw [he] at h1; cases h1
      | ok k' =>
        rw [he] at h1
        obtain ⟨h3, rfl⟩ := (C03_extension_key_accepts _ _).1 he
        simp only at h1
        cases hg : IndexMap.get s.extensions k' with
        | some x => rw [hg] at h1; simp at h1
        | none =>
          rw [hg] at h1
          rw [IndexMap.get_eq_none] at hg
          simp only [Option.isSome_none, Bool.false_eq_true, if_false, Outcome.ok.injEq] at h1
          rw [IndexMap.insert_new hg] at h1
          subst h1
          refine ⟨h3, hg, (ih ?_).1 h2⟩
          simp only [List.map_append, List.map_cons, List.map_nil, List.nodup_append]
          exact ⟨hs, by simp, by rintro a ha b hb rfl; simp at hb; exact hg (hb ▸ ha)⟩
    · rintro ⟨h1, h2, h3⟩
      refine ⟨{ s with extensions := s.extensions ++ [(k, v)] }, ?_, (ih ?_).2 h3⟩
      · rw [(C03_extension_key_accepts _ _).2 ⟨h1, rfl⟩]
        simp only
        rw [IndexMap.get_eq_none.2 h2, IndexMap.insert_new h2]
        rfl
      · simp only [List.map_append, List.map_cons, List.map_nil, List.nodup_append]
        exact ⟨hs, by simp, by rintro a ha b hb rfl; simp at hb; exact h2 (hb ▸ ha)⟩

/-! #### `disable` and `test` -/

private theorem deStrings_iff {cs : List Content} {ss : List Str} : deStrings cs = some ss ↔ cs = ss.map .str := by
  induction cs generalizing ss with
  | nil => cases ss <;> simp [deStrings]
  | cons c cs ih =>
    rw [deStrings]
    cases hc : deString c with
    | none =>
      simp only [reduceCtorEq, false_iff]
      intro h
      cases ss with
      | nil => cases h
      | cons s ss => simp only [List.map_cons, List.cons.injEq] at h; rw [h.1] at hc; cases hc
    | some x =>
      have hx : c = .str x := by cases c <;> cases hc; rfl
      subst hx
      cases hcs : deStrings cs with
      | none =>
        simp only [reduceCtorEq, false_iff]
        intro h
        cases ss with
        | nil => cases h
        | cons s ss =>
          simp only [List.map_cons, List.cons.injEq] at h
          rw [ih.2 h.2] at hcs; cases hcs
      | some xs =>
        simp only [Option.some.injEq]
        rw [ih] at hcs
        subst hcs
        cases ss with
        | nil => simp
        | cons s ss =>
          simp only [List.cons.injEq, List.map_cons, Content.str.injEq, and_congr_right_iff]
          intro _
          constructor
          · rintro rfl; rfl
          · intro h
            exact List.map_injective_iff.2 (fun a b h => by cases h; rfl) h

private theorem disableOrTest_iff {d d' : Option Bool} {t t' : Option Test} {v : Content} :
    disableOrTest d t v = some (d', t') ↔
      (∃ x, TestValue v x ∧ d' = d ∧ t' = some x) ∨ (v = noTest ∧ d ≠ some true ∧ d' = some true ∧ t' = t) := by
  have hg : d.getD false = true ↔ d = some true := by cases d <;> simp
  constructor
  · intro h
    cases v with
    | str s => cases h; exact .inl ⟨_, .shell, rfl, rfl⟩
    | seq items =>
      rw [disableOrTest] at h
      cases items with
      | nil => cases h
      | cons kind rest =>
        unfold testSeq at h
        dsimp only at h
        by_cases h1 : deString kind = some "CMD".toList
        · rw [if_pos h1] at h
          have hk : kind = .str "CMD".toList := by cases kind <;> cases h1; rfl
          subst hk
          cases hr : deStrings rest with
          | none => rw [hr] at h; cases h
          | some args =>
            rw [hr] at h
            cases h
            rw [deStrings_iff] at hr
            subst hr
            exact .inl ⟨_, .cmd, rfl, rfl⟩
        · rw [if_neg h1] at h
          by_cases h2 : deString kind = some "CMD-SHELL".toList
          · rw [if_pos h2] at h
            have hk : kind = .str "CMD-SHELL".toList := by cases kind <;> cases h2; rfl
            subst hk
            match rest, h with
            | [arg], h =>
              obtain ⟨s, h1, h2⟩ := Option.map_eq_some_iff.1 h
              cases h2
              have ha : arg = .str s := by cases arg <;> cases h1; rfl
              subst ha
              exact .inl ⟨_, .cmdShell, rfl, rfl⟩
          · rw [if_neg h2] at h
            by_cases h3 : deString kind = some "NONE".toList
            · rw [if_pos h3] at h
              have hk : kind = .str "NONE".toList := by cases kind <;> cases h3; rfl
              subst hk
              by_cases h4 : d.getD false = true
              · rw [if_pos h4] at h; cases h
              · rw [if_neg h4] at h
                match rest, h with
                | [], h => cases h; exact .inr ⟨rfl, fun h => h4 (hg.2 h), rfl, rfl⟩
            · rw [if_neg h3] at h; cases h
    | _ => cases h
  · rintro (⟨x, h, rfl, rfl⟩ | ⟨rfl, h, rfl, rfl⟩)
    · cases h with
      | shell => rfl
      | @cmd args =>
        have := deStrings_iff.2 (rfl : args.map Content.str = args.map .str)
        unfold disableOrTest testSeq
        dsimp only
        rw [if_pos (show deString (.str "CMD".toList) = some "CMD".toList from rfl), this]; rfl
      | cmdShell => rfl
    · have : disableOrTest d t' noTest = if d.getD false then none else some (some true, t') := rfl
      rw [this, if_neg (fun h' => h (hg.1 h'))]

private def OnlyDT (l : List (Str × Content)) : Prop := ∀ e ∈ l, e.1 = "disable".toList ∨ e.1 = "test".toList

private theorem runDT_disable {d : Option Bool} {t : Option Test} {v : Content} {l : List (Str × Content)}
    {q : Option Bool × Option Test} :
    runDT d t (("disable".toList, v) :: l) = some q ↔ d = none ∧ ∃ b, v = .bool b ∧ runDT (some b) t l = some q := by
  rw [runDT, if_pos rfl]
  cases d with
  | some _ => simp
  | none =>
    simp only [Option.isSome_none, Bool.false_eq_true, if_false, Option.bind_eq_some_iff, true_and]
    constructor
    · rintro ⟨b, h1, h2⟩; cases v <;> cases h1; exact ⟨b, rfl, h2⟩
    · rintro ⟨b, rfl, h2⟩; exact ⟨b, rfl, h2⟩

private theorem runDT_test {d : Option Bool} {t : Option Test} {v : Content} {l : List (Str × Content)}
    {q : Option Bool × Option Test} :
    runDT d t (("test".toList, v) :: l) = some q ↔
      t = none ∧ ((∃ x, TestValue v x ∧ runDT d (some x) l = some q) ∨
        (v = noTest ∧ d ≠ some true ∧ runDT (some true) none l = some q)) := by
  rw [runDT, if_neg (by clear * -; decide)]
  cases t with
  | some _ => simp
  | none =>
    simp only [Option.isSome_none, Bool.false_eq_true, if_false, Option.bind_eq_some_iff, true_and]
    constructor
    · rintro ⟨⟨d', t'⟩, h1, h2⟩
      rcases disableOrTest_iff.1 h1 with ⟨x, h3, rfl, rfl⟩ | ⟨h3, h4, rfl, rfl⟩
      · exact .inl ⟨x, h3, h2⟩
      · exact .inr ⟨h3, h4, h2⟩
    · rintro (⟨x, h1, h2⟩ | ⟨h1, h2, h3⟩)
      · exact ⟨_, disableOrTest_iff.2 (.inl ⟨x, h1, rfl, rfl⟩), h2⟩
      · exact ⟨_, disableOrTest_iff.2 (.inr ⟨h1, h2, rfl, rfl⟩), h3⟩

private theorem runDT_true {t t' : Option Test} {d' : Option Bool} {l : List (Str × Content)} (hl : OnlyDT l)
    (h : runDT (some true) t l = some (d', t')) : d' = some true := by
  induction l generalizing t with
  | nil => cases h; rfl
  | cons e l ih =>
    obtain ⟨k, v⟩ := e
    rcases hl (k, v) (by simp) with h1 | h1 <;> simp only at h1 <;> subst h1
    · rw [runDT_disable] at h; cases h.1
    · rw [runDT_test] at h
      rcases h.2 with ⟨x, -, h⟩ | ⟨-, h, -⟩
      · exact ih (fun e he => hl e (by simp [he])) h
      · exact absurd rfl h

private theorem runDT_some {d d' : Option Bool} {x : Test} {t' : Option Test} {l : List (Str × Content)} (hl : OnlyDT l)
    (h : runDT d (some x) l = some (d', t')) : t' = some x := by
  induction l generalizing d with
  | nil => cases h; rfl
  | cons e l ih =>
    obtain ⟨k, v⟩ := e
    rcases hl (k, v) (by simp) with h1 | h1 <;> simp only at h1 <;> subst h1
    · rw [runDT_disable] at h
      obtain ⟨-, b, -, h⟩ := h
      exact ih (fun e he => hl e (by simp [he])) h
    · rw [runDT_test] at h; cases h.1

private theorem runDT_on {d d' : Option Bool} {t t' : Option Test} {l : List (Str × Content)} (hl : OnlyDT l)
    (hd : d ≠ some true) :
    (runDT d t l = some (d', t') ∧ d' ≠ some true) ↔
      Acc (fun v b => v = .bool false ∧ b = false) d d' (valuesOf "disable".toList l) ∧
        Acc TestValue t t' (valuesOf "test".toList l) := by
  induction l generalizing d t with
  | nil =>
    simp only [runDT, valuesOf, List.filter_nil, List.map_nil, Acc, Option.some.injEq, Prod.mk.injEq, true_and, reduceCtorEq,
      false_and, exists_false, or_false]
    constructor
    · rintro ⟨⟨rfl, rfl⟩, -⟩; exact ⟨rfl, rfl⟩
    · rintro ⟨rfl, rfl⟩; exact ⟨⟨rfl, rfl⟩, hd⟩
  | cons e l ih =>
    have hl' : OnlyDT l := fun e he => hl e (by simp [he])
    obtain ⟨k, v⟩ := e
    rcases hl (k, v) (by simp) with h1 | h1 <;> simp only at h1 <;> subst h1
    · rw [runDT_disable, valuesOf_eq, acc_cons,
        valuesOf_ne (key := "test".toList) (k := "disable".toList) (v := v) (es := l) (by decide)]
      constructor
      · rintro ⟨⟨h1, b, h2, h3⟩, h4⟩
        cases b with
        | true => exact absurd (runDT_true hl' h3) h4
        | false =>
          have := (ih hl' (by simp)).1 ⟨h3, h4⟩
          exact ⟨⟨h1, false, ⟨h2, rfl⟩, this.1⟩, this.2⟩
      · rintro ⟨⟨h1, b, ⟨h2, rfl⟩, h3⟩, h4⟩
        have := (ih (d := some false) hl' (by simp)).2 ⟨h3, h4⟩
        exact ⟨⟨h1, false, h2, this.1⟩, this.2⟩
    · rw [runDT_test, valuesOf_eq, acc_cons,
        valuesOf_ne (key := "disable".toList) (k := "test".toList) (v := v) (es := l) (by decide)]
      constructor
      · rintro ⟨⟨h1, ⟨x, h2, h3⟩ | ⟨-, -, h3⟩⟩, h4⟩
        · have := (ih hl' hd).1 ⟨h3, h4⟩
          exact ⟨this.1, h1, x, h2, this.2⟩
        · exact absurd (runDT_true hl' h3) h4
      · rintro ⟨h1, h2, x, h3, h4⟩
        have := (ih hl' hd).2 ⟨h1, h4⟩
        exact ⟨⟨h2, .inl ⟨x, h3, this.1⟩⟩, this.2⟩

private theorem runDT_off_true {l : List (Str × Content)} (hl : OnlyDT l) :
    runDT (some true) none l = some (some true, none) ↔ l = [] := by
  constructor
  · intro h
    cases l with
    | nil => rfl
    | cons e l =>
      exfalso
      obtain ⟨k, v⟩ := e
      rcases hl (k, v) (by simp) with h1 | h1 <;> simp only at h1 <;> subst h1
      · rw [runDT_disable] at h; cases h.1
      · rw [runDT_test] at h
        rcases h.2 with ⟨x, -, h⟩ | ⟨-, h, -⟩
        · cases runDT_some (fun e he => hl e (by simp [he])) h
        · exact h rfl
  · rintro rfl; rfl

private theorem runDT_off {l : List (Str × Content)} (hl : OnlyDT l) :
    runDT none none l = some (some true, none) ↔
      l = [("disable".toList, .bool true)] ∨ l = [("test".toList, noTest)] ∨
        l = [("disable".toList, .bool false), ("test".toList, noTest)] := by
  constructor
  · intro h
    cases l with
    | nil => cases h
    | cons e l =>
      have hl' : OnlyDT l := fun e he => hl e (by simp [he])
      obtain ⟨k, v⟩ := e
      rcases hl (k, v) (by simp) with h1 | h1 <;> simp only at h1 <;> subst h1
      · rw [runDT_disable] at h
        obtain ⟨-, b, rfl, h⟩ := h
        cases b with
        | true => rw [runDT_off_true hl'] at h; subst h; exact .inl rfl
        | false =>
          cases l with
          | nil => cases h
          | cons e l =>
            have hl'' : OnlyDT l := fun e he => hl' e (by simp [he])
            obtain ⟨k, v⟩ := e
            rcases hl' (k, v) (by simp) with h1 | h1 <;> simp only at h1 <;> subst h1
            · rw [runDT_disable] at h; cases h.1
            · rw [runDT_test] at h
              rcases h.2 with ⟨x, -, h⟩ | ⟨rfl, -, h⟩
              · cases runDT_some hl'' h
              · rw [runDT_off_true hl''] at h; subst h; exact .inr (.inr rfl)
      · rw [runDT_test] at h
        rcases h.2 with ⟨x, -, h⟩ | ⟨rfl, -, h⟩
        · cases runDT_some hl' h
        · rw [runDT_off_true hl'] at h; subst h; exact .inr (.inl rfl)
  · rintro (rfl | rfl | rfl) <;> rfl

private theorem onlyDT_dtOf {es : List (Str × Content)} : OnlyDT (dtOf es) := by
  intro e he
  simpa using (List.mem_filter.1 he).2

private theorem valuesOf_dtOf {es : List (Str × Content)} :
    valuesOf "disable".toList (dtOf es) = valuesOf "disable".toList es ∧
      valuesOf "test".toList (dtOf es) = valuesOf "test".toList es := by
  unfold valuesOf dtOf
  simp only [List.filter_filter]
  constructor <;> congr 1 <;> apply List.filter_congr <;> intro e _
  · by_cases h : e.1 = "disable".toList
    · simp only [h, true_or, decide_true, Bool.and_self]
    · simp only [h, decide_false, Bool.false_and]
  · by_cases h : e.1 = "test".toList
    · simp only [h, or_true, decide_true, Bool.and_self]
    · simp only [h, decide_false, Bool.false_and]

private theorem deserialize_mapping {es : List (Str × Content)} {h : Healthcheck} :
    Healthcheck.deserialize (mapping es) = .ok h ↔ ∃ s, RunRel {} es s ∧ s.finish = .ok h := by
  unfold mapping
  rw [Healthcheck.deserialize, stringKeys_iff.2 rfl]
  simp only
  cases hr : HealthState.run {} es with
  | ok s =>
    simp only
    constructor
    · intro hf; exact ⟨s, (run_iff (s := {}) List.nodup_nil).1 hr, hf⟩
    · rintro ⟨s', h1, h2⟩
      rw [(run_iff (s := {}) List.nodup_nil).2 h1] at hr
      cases hr; exact h2
  | err e =>
    simp only [reduceCtorEq, false_iff]
    rintro ⟨s', h1, h2⟩
    rw [(run_iff (s := {}) List.nodup_nil).2 h1] at hr
    cases hr
  | panic =>
    simp only [reduceCtorEq, false_iff]
    rintro ⟨s', h1, h2⟩
    rw [(run_iff (s := {}) List.nodup_nil).2 h1] at hr
    cases hr

/-- **C53**. A health check is disabled by exactly these entries: `disable: true`, or `test: [NONE]`, or the latter after
`disable: false`; and nothing else beside them. -/
theorem C53_disable (es : List (Str × Content)) :
    Healthcheck.deserialize (mapping es) = .ok .disable ↔
      es = [("disable".toList, .bool true)] ∨ es = [("test".toList, noTest)] ∨
        es = [("disable".toList, .bool false), ("test".toList, noTest)] := by
  rw [deserialize_mapping]
  constructor
  · rintro ⟨s, h, hf⟩
    unfold HealthState.finish at hf
    split at hf
    · rename_i hd
      split at hf
      · rename_i hn
        simp only [Option.isNone_iff_eq_none] at hn
        obtain ⟨h1, h2, h3, h4, h5, h6, h7⟩ := hn
        have hempty : ∀ {α : Type} {R : Content → α → Prop} {n : Option α} {k : Str},
            Acc R none n (valuesOf k es) → n = none → ∀ e ∈ es, e.1 ≠ k := by
          rintro α R n k (⟨h, -⟩ | ⟨_, _, _, _, _, h⟩) h' e he rfl
          · unfold valuesOf at h
            rw [List.map_eq_nil_iff, List.filter_eq_nil_iff] at h
            exact h e he (by simp)
          · rw [h'] at h; cases h
        have hes : dtOf es = es := by
          unfold dtOf
          rw [List.filter_eq_self]
          intro e he
          have hx := h.extensions
          rw [h7] at hx
          have hx := (List.filter_eq_nil_iff.1 (List.append_eq_nil_iff.1 hx.symm).2) e he
          have hk : e.1 ∈ healthKeys := by simpa using hx
          simp only [healthKeys, List.mem_cons, List.not_mem_nil, or_false] at hk
          have e1 := hempty h.interval h2 e he
          have e2 := hempty h.timeout h3 e he
          have e3 := hempty h.retries h4 e he
          have e4 := hempty h.startPeriod h5 e he
          have e5 := hempty h.startInterval h6 e he
          rw [decide_eq_true_eq]
          rcases hk with hk | hk | hk | hk | hk | hk | hk
          · exact .inl hk
          · exact .inr hk
          · exact absurd hk e1
          · exact absurd hk e2
          · exact absurd hk e3
          · exact absurd hk e4
          · exact absurd hk e5
        have hdt := h.dt
        rw [hes, h1] at hdt
        have hd' : s.disable = some true := by
          cases hh : s.disable with
          | none => rw [hh] at hd; cases hd
          | some b => rw [hh] at hd; cases b; cases hd; rfl
        rw [hd'] at hdt
        exact (runDT_off (hes ▸ onlyDT_dtOf)).1 hdt
      · cases hf
    · cases hf
  · intro h
    refine ⟨{ disable := some true }, ?_, rfl⟩
    refine (run_iff (s := {}) List.nodup_nil).1 ?_
    rcases h with rfl | rfl | rfl <;> rfl

example : Healthcheck.deserialize (mapping [("test".toList, noTest)]) = .ok .disable := (C53_disable _).2 (.inr (.inl rfl))

/-- **C53**. In every other case in which it is accepted, a health check has exactly the settings that are given. -/
theorem C53_command (es : List (Str × Content)) (c : HealthCommand) :
    Healthcheck.deserialize (mapping es) = .ok (.command c) ↔ CommandFields es c := by
  rw [deserialize_mapping]
  constructor
  · rintro ⟨s, h, hf⟩
    unfold HealthState.finish at hf
    split at hf
    · split at hf <;> cases hf
    · rename_i hd
      cases hf
      have hd' : s.disable ≠ some true := by rintro h; rw [h] at hd; exact hd rfl
      obtain ⟨h1, h2⟩ := (runDT_on onlyDT_dtOf (by simp)).1 ⟨h.dt, hd'⟩
      rw [valuesOf_dtOf.1] at h1
      rw [valuesOf_dtOf.2, acc_init] at h2
      exact
        { keys := h.keys
          disable := by
            rcases h1 with ⟨h1, -⟩ | ⟨v, b, h1, -, ⟨rfl, -⟩, -⟩
            · exact .inl h1
            · exact .inr h1
          test := h2
          interval := acc_init.1 h.interval
          timeout := acc_init.1 h.timeout
          retries := acc_init.1 h.retries
          startPeriod := acc_init.1 h.startPeriod
          startInterval := acc_init.1 h.startInterval
          extensions := h.extensions
          distinct := h.distinct }
  · intro h
    obtain ⟨d, hd⟩ : ∃ d, Acc (fun v b => v = .bool false ∧ b = false) none d (valuesOf "disable".toList es) := by
      rcases h.disable with h | h
      · exact ⟨none, .inl ⟨h, rfl⟩⟩
      · exact ⟨some false, .inr ⟨_, _, h, rfl, ⟨rfl, rfl⟩, rfl⟩⟩
    have hdt := (runDT_on (onlyDT_dtOf (es := es)) (d := none) (d' := d) (t := none) (t' := c.test) (by simp)).2
      ⟨by rw [valuesOf_dtOf.1]; exact hd, by rw [valuesOf_dtOf.2, acc_init]; exact h.test⟩
    refine ⟨⟨d, c.test, c.interval, c.timeout, c.retries, c.startPeriod, c.startInterval, c.extensions⟩, ?_, ?_⟩
    · exact
        { keys := h.keys
          dt := hdt.1
          interval := acc_init.2 h.interval
          timeout := acc_init.2 h.timeout
          retries := acc_init.2 h.retries
          startPeriod := acc_init.2 h.startPeriod
          startInterval := acc_init.2 h.startInterval
          extensions := h.extensions
          distinct := h.distinct }
    · unfold HealthState.finish
      rw [if_neg]
      intro hh
      cases d with
      | none => cases hh
      | some b => cases b; cases hh; exact hdt.2 rfl

example : CommandFields [("x-note".toList, .u64 1), ("retries".toList, .u64 3)]
    ⟨none, none, none, some 3, none, none, [("x-note".toList, .u64 1)]⟩ := (C53_command _ _).1 rfl

/-- **C53**. Only mappings with string keys are health checks. -/
theorem C53_mapping_only (c : Content) (h : Healthcheck) (hd : Healthcheck.deserialize c = .ok h) :
    ∃ es, c = mapping es := by
  cases c with
  | map entries =>
    rw [Healthcheck.deserialize] at hd
    cases hs : stringKeys entries with
    | none => rw [hs] at hd; cases hd
    | some es => exact ⟨es, by rw [mapping, stringKeys_iff.1 hs]⟩
  | _ => cases hd

example : ∀ h, Healthcheck.deserialize (.seq [.str "NONE".toList]) ≠ .ok h :=
  fun h hd => (C53_mapping_only _ h hd).elim nofun

theorem valuesOf_append {key : Str} {a b : List (Str × Content)} :
    valuesOf key (a ++ b) = valuesOf key a ++ valuesOf key b := by
  simp [valuesOf]

theorem valuesOf_optEntry {α : Type} {key k : String} {ser : α → Content} {o : Option α} :
    valuesOf key.toList (optEntry k ser o) = if k = key then o.toList.map ser else [] := by
  cases o with
  | none => simp [optEntry, valuesOf]
  | some x =>
    by_cases h : k = key
    · simp [optEntry, valuesOf, h]
    · have : k.toList ≠ key.toList := fun h' => h (String.toList_inj.1 h')
      simp [optEntry, valuesOf, h, this]

theorem valuesOf_none {key : Str} {es : List (Str × Content)} (h : ∀ e ∈ es, e.1 ≠ key) : valuesOf key es = [] := by
  unfold valuesOf
  rw [List.map_eq_nil_iff, List.filter_eq_nil_iff]
  intro e he
  simpa using h e he

theorem optField_of {α : Type} {es : List (Str × Content)} {key : Str} {denotes : Content → α → Prop} {ser : α → Content}
    {o : Option α} (h : valuesOf key es = o.toList.map ser) (hd : ∀ x, o = some x → denotes (ser x) x) :
    OptField es key denotes o := by
  cases o with
  | none => exact .inl ⟨h, rfl⟩
  | some x => exact .inr ⟨_, x, h, hd x rfl, rfl⟩

private theorem extensionKey_not_health {k : Str} (h : ExtensionKey k) : k ∉ healthKeys := by
  obtain ⟨⟨r, rfl⟩, -⟩ := h
  simp only [healthKeys, List.mem_cons, List.not_mem_nil, or_false, not_or]
  refine ⟨?_, ?_, ?_, ?_, ?_, ?_, ?_⟩ <;> · intro h; have := congrArg (List.head? ·) h; revert this; simp

/-- Durations that are written without loss. -/
def WholeMicros (o : Option Duration) : Prop :=
  ∀ d, o = some d → d.secs < 2 ^ 64 ∧ d.nanos < 10 ^ 9 ∧ d.nanos % 1000 = 0

private theorem durationValue_ser {o : Option Duration} (h : WholeMicros o) :
    ∀ d, o = some d → DurationValue (serializeDuration (some d)) d := by
  intro d hd
  obtain ⟨h1, h2, h3⟩ := h d hd
  rw [← durationValue_iff, C68_duration_field.1 d h1 h2]
  obtain ⟨a, b⟩ := d
  simp only [Outcome.ok.injEq, Option.some.injEq, Duration.mk.injEq, true_and]
  simp only at h3
  omega

/-- **C53**. A serialized health check decodes to itself. -/
theorem C53_round_trip (h : Healthcheck)
    (hc : ∀ c, h = .command c → WholeMicros c.interval ∧ WholeMicros c.timeout ∧ WholeMicros c.startPeriod ∧
      WholeMicros c.startInterval ∧ (∀ n, c.retries = some n → n < 2 ^ 64) ∧ (∀ e ∈ c.extensions, ExtensionKey e.1) ∧
      (c.extensions.map (·.1)).Nodup) :
    Healthcheck.deserialize h.serialize = .ok h := by
  cases h with
  | disable => exact (C53_disable _).2 (.inl rfl)
  | command c =>
    obtain ⟨h1, h2, h3, h4, h5, h6, h7⟩ := hc c rfl
    refine (C53_command _ c).2 ?_
    have hx : ∀ k ∈ healthKeys, valuesOf k c.extensions = [] := fun k hk =>
      valuesOf_none fun e he h => extensionKey_not_health (h6 e he) (h ▸ hk)
    have hv : ∀ {α : Type} (k : String) (ser : α → Content) (o : Option α), k.toList ∈ healthKeys →
        (optEntry k ser o).filter (·.1 ∉ healthKeys) = [] := by
      intro α k ser o hk
      rw [List.filter_eq_nil_iff]
      intro e he
      cases o with
      | none => cases he
      | some x =>
        simp only [optEntry, List.mem_singleton] at he
        subst he
        simpa using hk
    have hk : ∀ {α : Type} (k : String) (ser : α → Content) (o : Option α), k.toList ∈ healthKeys →
        ∀ e ∈ optEntry k ser o, e.1 ∈ healthKeys := by
      intro α k ser o hk e he
      cases o with
      | none => cases he
      | some x =>
        simp only [optEntry, List.mem_singleton] at he
        subst he
        exact hk
    exact
      { keys := by
          intro e he
          simp only [List.mem_append] at he
          rcases he with (((((he | he) | he) | he) | he) | he) | he
          · exact .inl (hk _ _ _ (by clear * -; decide) e he)
          · exact .inl (hk _ _ _ (by clear * -; decide) e he)
          · exact .inl (hk _ _ _ (by clear * -; decide) e he)
          · exact .inl (hk _ _ _ (by clear * -; decide) e he)
          · exact .inl (hk _ _ _ (by clear * -; decide) e he)
          · exact .inl (hk _ _ _ (by clear * -; decide) e he)
          · exact .inr (h6 e he)
        disable := by
          left
          simp only [valuesOf_append, valuesOf_optEntry, hx "disable".toList (by clear * -; decide), List.append_nil]
          simp
        test := by
          refine optField_of (ser := Test.serialize) ?_ ?_
          · simp only [valuesOf_append, valuesOf_optEntry, hx "test".toList (by clear * -; decide), List.append_nil]
            simp
          · rintro (args | s) - <;> constructor
        interval := by
          refine optField_of ?_ (durationValue_ser h1)
          simp only [valuesOf_append, valuesOf_optEntry, hx "interval".toList (by clear * -; decide), List.append_nil]
          simp
        timeout := by
          refine optField_of ?_ (durationValue_ser h2)
          simp only [valuesOf_append, valuesOf_optEntry, hx "timeout".toList (by clear * -; decide), List.append_nil]
          simp
        retries := by
          refine optField_of (ser := Content.u64) ?_ fun n hn => ⟨.inr ⟨by omega, rfl⟩, h5 n hn⟩
          simp only [valuesOf_append, valuesOf_optEntry, hx "retries".toList (by clear * -; decide), List.append_nil]
          simp
        startPeriod := by
          refine optField_of ?_ (durationValue_ser h3)
          simp only [valuesOf_append, valuesOf_optEntry, hx "start_period".toList (by clear * -; decide), List.append_nil]
          simp
        startInterval := by
          refine optField_of ?_ (durationValue_ser h4)
          simp only [valuesOf_append, valuesOf_optEntry, hx "start_interval".toList (by clear * -; decide), List.append_nil]
          simp
        extensions := by
          simp only [List.filter_append]
          rw [hv _ _ _ (by clear * -; decide), hv _ _ _ (by clear * -; decide), hv _ _ _ (by clear * -; decide),
            hv _ _ _ (by clear * -; decide), hv _ _ _ (by clear * -; decide), hv _ _ _ (by clear * -; decide)]
          simp only [List.nil_append]
          refine (List.filter_eq_self.2 fun e he => ?_).symm
          simpa using extensionKey_not_health (h6 e he)
        distinct := h7 }

private theorem valuesOf_perm {key : Str} {es es' : List (Str × Content)} (h : es.Perm es') :
    (valuesOf key es).Perm (valuesOf key es') := (h.filter _).map _

private theorem optField_perm {α : Type} {key : Str} {denotes : Content → α → Prop} {o : Option α}
    {es es' : List (Str × Content)} (h : es.Perm es') (ho : OptField es key denotes o) : OptField es' key denotes o := by
  have hp := valuesOf_perm (key := key) h
  rcases ho with ⟨h1, h2⟩ | ⟨v, x, h1, h2, h3⟩
  · rw [h1] at hp
    exact .inl ⟨List.nil_perm.1 hp, h2⟩
  · rw [h1] at hp
    exact .inr ⟨v, x, (List.singleton_perm.1 hp).symm, h2, h3⟩

/-- **C54** (partial). The order of the entries does not matter, unless the entries are exactly `disable: false` and
`test: [NONE]`. -/
theorem C54_order_partial (es es' : List (Str × Content)) (h : Healthcheck) (hp : es.Perm es')
    (hne : ¬ es.Perm [("disable".toList, .bool false), ("test".toList, noTest)])
    (hd : Healthcheck.deserialize (mapping es) = .ok h) :
    ∃ h', Healthcheck.deserialize (mapping es') = .ok h' ∧ SameHealthcheck h h' := by
  cases h with
  | disable =>
    refine ⟨.disable, ?_, trivial⟩
    rcases (C53_disable es).1 hd with rfl | rfl | rfl
    · rw [← List.singleton_perm.1 hp]; exact hd
    · rw [← List.singleton_perm.1 hp]; exact hd
    · exact absurd (List.Perm.refl _) hne
  | command c =>
    have hc := (C53_command es c).1 hd
    have hf := hp.filter (fun e => decide (e.1 ∉ healthKeys))
    refine ⟨.command { c with extensions := es'.filter (·.1 ∉ healthKeys) }, (C53_command _ _).2 ?_, ?_⟩
    · exact
        { keys := fun e he => hc.keys e (hp.mem_iff.2 he)
          disable := by
            have hv := valuesOf_perm (key := "disable".toList) hp
            rcases hc.disable with h1 | h1 <;> rw [h1] at hv
            · exact .inl (List.nil_perm.1 hv)
            · exact .inr (List.singleton_perm.1 hv).symm
          test := optField_perm hp hc.test
          interval := optField_perm hp hc.interval
          timeout := optField_perm hp hc.timeout
          retries := optField_perm hp hc.retries
          startPeriod := optField_perm hp hc.startPeriod
          startInterval := optField_perm hp hc.startInterval
          extensions := rfl
          distinct := by
            have := hc.distinct
            rw [hc.extensions] at this
            exact ((hf.map (·.1)).nodup_iff).1 this }
    · exact ⟨rfl, rfl, rfl, rfl, rfl, rfl, hc.extensions ▸ hf⟩

/-- **C54** is false: `disable: false` before `test: [NONE]` is accepted, after it is an error. -/
theorem C54_order_false :
    ∃ es es' : List (Str × Content), es.Perm es' ∧ Healthcheck.deserialize (mapping es) = .ok .disable ∧
      Healthcheck.deserialize (mapping es') = .err () :=
  ⟨[("disable".toList, .bool false), ("test".toList, noTest)], [("test".toList, noTest), ("disable".toList, .bool false)],
    .swap _ _ _, rfl, rfl⟩

/-! Instances. -/

example : Healthcheck.deserialize (mapping [("x-note".toList, .u64 1), ("retries".toList, .u64 3),
    ("test".toList, .seq [.str "CMD".toList, .str "true".toList]), ("interval".toList, .str "1m30s".toList)]) =
    .ok (.command ⟨some (.command ["true".toList]), some ⟨90, 0⟩, none, some 3, none, none, [("x-note".toList, .u64 1)]⟩) := rfl

example : Healthcheck.deserialize (mapping [("disable".toList, .bool true), ("retries".toList, .u64 3)]) = .err () := rfl

example : Healthcheck.deserialize (mapping [("retries".toList, .u64 3), ("retries".toList, .u64 3)]) = .err () := rfl

example : Healthcheck.deserialize
    (Healthcheck.serialize (.command ⟨some (.shellCommand "true".toList), some ⟨90, 5000⟩, none, some 3, none, none,
      [("x-a".toList, .bool true)]⟩)) =
    .ok (.command ⟨some (.shellCommand "true".toList), some ⟨90, 5000⟩, none, some 3, none, none,
      [("x-a".toList, .bool true)]⟩) :=
  C53_round_trip _ (by
    intro c hc
    cases hc
    refine ⟨?_, ?_, ?_, ?_, ?_, ?_, by simp⟩
    · rintro d h; cases h; exact ⟨by decide, by decide, rfl⟩
    · rintro d h; cases h
    · rintro d h; cases h
    · rintro d h; cases h
    · rintro d h; cases h; decide
    · intro e he; rw [List.mem_singleton.1 he]; exact ⟨⟨['a'], rfl⟩, by decide⟩)

/-- The hypotheses of `C54_order_partial` hold for two orders of a command. -/
example : ∃ h', Healthcheck.deserialize (mapping [("retries".toList, .u64 3), ("disable".toList, .bool false)]) = .ok h' ∧
    SameHealthcheck (.command ⟨none, none, none, some 3, none, none, []⟩) h' :=
  C54_order_partial [("disable".toList, .bool false), ("retries".toList, .u64 3)] _ _ (.swap _ _ _)
    (fun h => by
      have := h.mem_iff (a := (("retries".toList, .u64 3) : Str × Content))
      simp [noTest] at this) rfl

end Props
