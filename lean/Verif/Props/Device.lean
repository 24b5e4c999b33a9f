import Verif.Spec.Device
import Verif.Proofs.Number
import Verif.Props.Modes

/- C44: devices, permissions and device cgroup rules. -/

namespace Props
open Rust Compose Spec

theorem mem_rwm {c : Char} : c ∈ "rwm".toList ↔ c = 'r' ∨ c = 'w' ∨ c = 'm' := by simp

theorem permissionsLoop_iff (p q : Permissions) (s : Str) :
    Permissions.loop p s = .ok q ↔ (∀ c ∈ s, c ∈ "rwm".toList) ∧
      q = ⟨p.read || decide ('r' ∈ s), p.write || decide ('w' ∈ s), p.mknod || decide ('m' ∈ s)⟩ := by
  induction s generalizing p with
  | nil => simp [Permissions.loop, eq_comm]
  | cons c cs ih =>
    simp only [Permissions.loop, List.forall_mem_cons, mem_rwm] at *
    split
    · rename_i h; subst h; rw [ih]; simp
    split
    · rename_i h; subst h; rw [ih]; simp
    split
    · rename_i h; subst h; rw [ih]; simp
    · simp_all

/-- C44: a text lists permissions exactly if it consists of the letters `r`, `w` and `m`, in any order and number;
exactly the listed permissions are granted. -/
theorem C44_permissions_accepts (s : Str) (p : Permissions) :
    Permissions.fromStr s = .ok p ↔ PermissionsText s p := by
  unfold Permissions.fromStr PermissionsText
  rw [permissionsLoop_iff]
  refine and_congr_right fun _ => ?_
  obtain ⟨r, w, m⟩ := p
  simp only [Permissions.mk.injEq, Bool.false_or]
  refine and_congr ?_ (and_congr ?_ ?_) <;> rw [Bool.eq_iff_iff] <;> simp

example : PermissionsText "mrr".toList ⟨true, false, true⟩ := (C44_permissions_accepts _ _).1 rfl

theorem permissionsLoop_error (p : Permissions) (s : Str) (c : Char) :
    Permissions.loop p s = .error ⟨c⟩ ↔
      ∃ a b, s = a ++ c :: b ∧ (∀ x ∈ a, x ∈ "rwm".toList) ∧ c ∉ "rwm".toList := by
  induction s generalizing p with
  | nil => simp [Permissions.loop]
  | cons d ds ih =>
    have step : ∀ p, d ∈ "rwm".toList → ((Permissions.loop p ds = .error ⟨c⟩) ↔
        ∃ a b, d :: ds = a ++ c :: b ∧ (∀ x ∈ a, x ∈ "rwm".toList) ∧ c ∉ "rwm".toList) := by
      intro p hd
      rw [ih]
      constructor
      · rintro ⟨a, b, rfl, ha, hc⟩
        exact ⟨d :: a, b, rfl, List.forall_mem_cons.2 ⟨hd, ha⟩, hc⟩
      · rintro ⟨a, b, h, ha, hc⟩
        cases a with
        | nil => simp at h; exact absurd (h.1 ▸ hd) hc
        | cons x xs => simp at h; exact ⟨xs, b, h.2, (List.forall_mem_cons.1 ha).2, hc⟩
    simp only [Permissions.loop]
    split
    · rename_i h; exact step _ (by simp [h])
    split
    · rename_i h; exact step _ (by simp [h])
    split
    · rename_i h; exact step _ (by simp [h])
    · rename_i h1 h2 h3
      have hd : d ∉ "rwm".toList := by simp [h1, h2, h3]
      constructor
      · intro h; cases h; exact ⟨[], ds, rfl, by simp, hd⟩
      · rintro ⟨a, b, h, ha, hc⟩
        cases a with
        | nil => simp at h; rw [h.1]
        | cons x xs => simp at h; exact absurd (h.1 ▸ (List.forall_mem_cons.1 ha).1) hd

/-- C44: permissions are rejected with the first character that is not `r`, `w` or `m`. -/
theorem C44_permissions_error (s : Str) (c : Char) :
    Permissions.fromStr s = .error ⟨c⟩ ↔
      ∃ a b, s = a ++ c :: b ∧ (∀ x ∈ a, x ∈ "rwm".toList) ∧ c ∉ "rwm".toList :=
  permissionsLoop_error _ s c

example : Permissions.fromStr "rxw".toList = .error ⟨'x'⟩ :=
  (C44_permissions_error _ _).2 ⟨"r".toList, "w".toList, rfl, by decide, by decide⟩

/-- C44: permissions print to text that parses back to them. -/
theorem C44_permissions_round_trip (p : Permissions) : Permissions.fromStr p.display = .ok p := by
  rw [C44_permissions_accepts]
  obtain ⟨_ | _, _ | _, _ | _⟩ := p <;> simp [PermissionsText, Permissions.display]

example : Permissions.display ⟨true, false, true⟩ = "rm".toList ∧ Permissions.fromStr "rm".toList = .ok ⟨true, false, true⟩ :=
  ⟨rfl, C44_permissions_round_trip ⟨true, false, true⟩⟩

theorem permissions_any_false {p : Permissions} (h : ¬ p.any = true) : PermissionsText [] p := by
  obtain ⟨_ | _, _ | _, _ | _⟩ := p <;> simp_all [PermissionsText, Permissions.any]

theorem permissions_display {p : Permissions} : PermissionsText p.display p :=
  (C44_permissions_accepts _ _).1 (C44_permissions_round_trip p)

example : Permissions.fromStr "mrr".toList = .ok ⟨true, false, true⟩ := by rfl
example : Permissions.fromStr "rxw".toList = .error ⟨'x'⟩ := by rfl
example : (Permissions.mk true false true).display = "rm".toList := by rfl

/-- C44: a text is a device exactly if it has the documented form. -/
theorem C44_device_accepts (s : Str) (d : Device) : Device.fromStr s = .ok d ↔ DeviceText s d := by
  unfold Device.fromStr
  have key : ∀ (h c t : Str), ':' ∉ h → ':' ∉ c →
      ((match absolutePathNew c with
        | .error e => .error (.containerPathAbsolute e)
        | .ok containerPath =>
          match Permissions.fromStr t with
          | .error e => .error (.permissions e)
          | .ok permissions => .ok (Device.mk h containerPath permissions) : Except ParseDeviceError Device) = .ok d ↔
        d.hostPath = h ∧ d.containerPath = c ∧ AbsolutePath c ∧ PermissionsText t d.permissions) := by
    intro h c t _ _
    obtain ⟨h', c', p'⟩ := d
    match hc : absolutePathNew c with
    | .error e =>
      simp only [reduceCtorEq, false_iff]
      rintro ⟨-, -, ha, -⟩
      rw [(C36_absolute_path_new c c).2 ⟨ha, rfl⟩] at hc; cases hc
    | .ok c'' =>
      obtain ⟨ha, rfl⟩ := (C36_absolute_path_new c c'').1 hc
      simp only
      rw [← C44_permissions_accepts]
      match hp : Permissions.fromStr t with
      | .error e => simp
      | .ok p => simp [ha, eq_comm]
  rcases splitn3_cases ':' s with ⟨hs, h⟩ | ⟨a, b, rfl, ha, hb, h⟩ | ⟨a, b, t, rfl, ha, hb, h⟩ <;> rw [h] <;> simp only
  · simp only [reduceCtorEq, false_iff]
    intro hd
    cases hd <;> simp at hs
  · refine (key a b [] ha hb).trans ⟨?_, ?_⟩
    · rintro ⟨rfl, rfl, hab, hp⟩
      have := DeviceText.plain ha hb hab hp
      simpa using this
    · intro hd
      generalize hs : a ++ ':' :: b = s at hd
      cases hd with
      | @plain h c p h1 h2 h3 h4 =>
        rw [show h ++ ":".toList ++ c = h ++ ':' :: c by simp] at hs
        obtain ⟨rfl, rfl⟩ := append_sep_inj hs ha h1
        exact ⟨rfl, rfl, h3, h4⟩
      | @withPermissions h c t p h1 h2 h3 h4 =>
        rw [show h ++ ":".toList ++ c ++ ":".toList ++ t = h ++ ':' :: (c ++ ':' :: t) by simp] at hs
        obtain ⟨rfl, rfl⟩ := append_sep_inj hs ha h1
        simp at hb
  · refine (key a b t ha hb).trans ⟨?_, ?_⟩
    · rintro ⟨rfl, rfl, hab, hp⟩
      have := DeviceText.withPermissions ha hb hab hp
      simpa using this
    · intro hd
      generalize hs : a ++ ':' :: (b ++ ':' :: t) = s at hd
      cases hd with
      | @plain h c p h1 h2 h3 h4 =>
        rw [show h ++ ":".toList ++ c = h ++ ':' :: c by simp] at hs
        obtain ⟨rfl, rfl⟩ := append_sep_inj hs ha h1
        simp at h2
      | @withPermissions h c t p h1 h2 h3 h4 =>
        rw [show h ++ ":".toList ++ c ++ ":".toList ++ t = h ++ ':' :: (c ++ ':' :: t) by simp] at hs
        obtain ⟨rfl, hs'⟩ := append_sep_inj hs ha h1
        obtain ⟨rfl, rfl⟩ := append_sep_inj hs' hb h2
        exact ⟨rfl, rfl, h3, h4⟩

example : DeviceText "/dev/ttyUSB0:/dev/tty:rw".toList ⟨"/dev/ttyUSB0".toList, "/dev/tty".toList, ⟨true, true, false⟩⟩ :=
  (C44_device_accepts _ _).1 rfl

/-- C44: a device prints to text that parses back to it exactly if neither of its paths has a colon. -/
theorem C44_device_round_trip (d : Device) (h : AbsolutePath d.containerPath) :
    Device.fromStr d.display = .ok d ↔ ':' ∉ d.hostPath ∧ ':' ∉ d.containerPath := by
  rw [C44_device_accepts]
  constructor
  · intro hd
    generalize d.display = s at hd
    cases hd <;> exact ⟨by assumption, by assumption⟩
  · rintro ⟨h1, h2⟩
    obtain ⟨a, b, p⟩ := d
    simp only [Device.display]
    split
    · have := DeviceText.withPermissions h1 h2 h (permissions_display (p := p))
      simpa using this
    · rename_i hp
      have := DeviceText.plain h1 h2 h (permissions_any_false hp)
      simpa using this

example : Device.fromStr "/dev/ttyUSB0:/dev/tty:rw".toList =
    .ok ⟨"/dev/ttyUSB0".toList, "/dev/tty".toList, ⟨true, true, false⟩⟩ := by rfl
example : Device.fromStr "a:/b".toList = .ok ⟨"a".toList, "/b".toList, ⟨false, false, false⟩⟩ := by rfl
example : Device.fromStr "a:b".toList = .error (.containerPathAbsolute .notAbsolute) := by rfl
example : AbsolutePath (Device.mk "a:b".toList "/c".toList ⟨true, false, false⟩).containerPath := ⟨_, rfl⟩

/-! #### cgroup rules -/

theorem kind_iff (s : Str) (k : DeviceKind) : DeviceKind.fromStr s = .ok k ↔ KindText s k := by
  unfold DeviceKind.fromStr
  constructor
  · intro h
    split at h
    · rename_i hs; subst hs; cases h; exact .all
    split at h
    · rename_i hs; subst hs; cases h; exact .char
    split at h
    · rename_i hs; subst hs; cases h; exact .block
    · cases h
  · rintro ⟨⟩ <;> rfl

/-- C44: a device kind is `a`, `b` or `c`, both as a text and as a character, and prints as that. -/
theorem C44_kind (s : Str) (k : DeviceKind) :
    (DeviceKind.fromStr s = .ok k ↔ KindText s k) ∧ (KindText s k ↔ s = [k.asChar]) ∧
    (∀ c, DeviceKind.ofChar c = some k ↔ KindText [c] k) := by
  refine ⟨kind_iff s k, ?_, fun c => ?_⟩
  · constructor
    · rintro ⟨⟩ <;> rfl
    · rintro rfl; cases k <;> constructor
  · unfold DeviceKind.ofChar
    constructor
    · intro h
      split at h
      · rename_i hs; subst hs; cases h; exact .all
      split at h
      · rename_i hs; subst hs; cases h; exact .char
      split at h
      · rename_i hs; subst hs; cases h; exact .block
      · cases h
    · intro h
      generalize hs : [c] = s at h
      cases h <;> (simp at hs; subst hs; rfl)

example : DeviceKind.fromStr "b".toList = .ok .block ∧ KindText "b".toList .block :=
  ⟨(C44_kind "b".toList .block).1.2 ((C44_kind _ _).2.1.2 rfl), (C44_kind _ _).2.1.2 rfl⟩

theorem majorMinor_iff (s : Str) (m : MajorMinorNumber) : MajorMinorNumber.fromStr s = .ok m ↔ MajorMinorText s m := by
  unfold MajorMinorNumber.fromStr
  split
  · rename_i h
    simp only [List.isEmpty_iff, Bool.or_eq_true, decide_eq_true_eq] at h
    rcases h with rfl | rfl
    · constructor
      · intro h; cases h; exact .empty
      · intro h
        cases h with
        | empty => rfl
        | number h => exact absurd rfl h.ne_nil
    · constructor
      · intro h; cases h; exact .star
      · intro h
        generalize hs : str!"*" = s at h
        cases h with
        | star => rfl
        | empty => rfl
        | number h =>
          subst hs
          have := h.chars '*' (by simp)
          exact absurd this (by decide)
  · rename_i h
    simp only [List.isEmpty_iff, Bool.or_eq_true, decide_eq_true_eq, not_or] at h
    rw [map_ok]
    constructor
    · rintro ⟨n, hn, rfl⟩; exact .number (parseUnsigned_iff.1 hn)
    · intro h
      cases h with
      | star => simp at h
      | empty => simp at h
      | number hn => exact ⟨_, parseUnsigned_iff.2 hn, rfl⟩

theorem majorMinor_no_sep {s : Str} {m : MajorMinorNumber} (h : MajorMinorText s m) : ':' ∉ s ∧ ' ' ∉ s := by
  cases h with
  | star => simp
  | empty => simp
  | number h =>
    constructor <;> (intro hm; exact absurd (h.chars _ hm) (by decide))

theorem kind_no_sep {s : Str} {k : DeviceKind} (h : KindText s k) : ' ' ∉ s := by cases h <;> simp

/-- C44: a text is a device cgroup rule exactly if it has the documented form. -/
theorem C44_cgroup_rule_accepts (s : Str) (r : CgroupRule) : CgroupRule.fromStr s = .ok r ↔ CgroupRuleText s r := by
  constructor
  · intro h
    unfold CgroupRule.fromStr at h
    simp only at h
    split at h
    · cases h
    rename_i kind hk
    split at h
    · cases h
    rename_i major minor hmm
    split at h
    · cases h
    rename_i major' hma
    split at h
    · cases h
    rename_i minor' hmi
    split at h
    · cases h
    rename_i p hp
    cases h
    rw [kind_iff] at hk
    rw [majorMinor_iff] at hma hmi
    rw [C44_permissions_accepts] at hp
    rcases splitn3_cases ' ' s with ⟨hs, hsp⟩ | ⟨a, b, rfl, ha, hb, hsp⟩ | ⟨a, b, t, rfl, ha, hb, hsp⟩ <;>
      rw [hsp] at hk hmm hp <;> simp only [Option.bind_none, Option.bind_some, Option.getD_none, Option.getD_some] at *
    · cases hmm
    · obtain ⟨rfl, -⟩ := splitOnce_eq_some.1 hmm
      have := CgroupRuleText.plain hk hma hmi hp
      simpa using this
    · obtain ⟨rfl, -⟩ := splitOnce_eq_some.1 hmm
      have := CgroupRuleText.withPermissions hk hma hmi hp
      simpa using this
  · intro h
    cases h with
    | @plain k a b kind major minor p hk ha hb hp =>
      have hsp : splitn3 ' ' (k ++ " ".toList ++ a ++ ":".toList ++ b) = (k, some (a ++ ':' :: b), none) := by
        have hna : ' ' ∉ a ++ ':' :: b := by
          simp [(majorMinor_no_sep ha).2, (majorMinor_no_sep hb).2]
        unfold splitn3
        rw [(splitOnce_eq_some (a := k) (b := a ++ ':' :: b)).2 ⟨by simp, kind_no_sep hk⟩]
        simp only [splitOnce_eq_none.2 hna]
      unfold CgroupRule.fromStr
      simp only [hsp, (kind_iff _ _).2 hk, Option.bind_some,
        (splitOnce_eq_some (a := a) (b := b)).2 ⟨rfl, (majorMinor_no_sep ha).1⟩, (majorMinor_iff _ _).2 ha,
        (majorMinor_iff _ _).2 hb, Option.getD_none, (C44_permissions_accepts _ _).2 hp]
    | @withPermissions k a b t kind major minor p hk ha hb hp =>
      have hsp : splitn3 ' ' (k ++ " ".toList ++ a ++ ":".toList ++ b ++ " ".toList ++ t) =
          (k, some (a ++ ':' :: b), some t) := by
        have hna : ' ' ∉ a ++ ':' :: b := by
          simp [(majorMinor_no_sep ha).2, (majorMinor_no_sep hb).2]
        unfold splitn3
        rw [(splitOnce_eq_some (a := k) (b := a ++ ':' :: b ++ ' ' :: t)).2 ⟨by simp, kind_no_sep hk⟩]
        simp only [(splitOnce_eq_some (a := a ++ ':' :: b) (b := t)).2 ⟨rfl, hna⟩]
      unfold CgroupRule.fromStr
      simp only [hsp, (kind_iff _ _).2 hk, Option.bind_some,
        (splitOnce_eq_some (a := a) (b := b)).2 ⟨rfl, (majorMinor_no_sep ha).1⟩, (majorMinor_iff _ _).2 ha,
        (majorMinor_iff _ _).2 hb, Option.getD_some, (C44_permissions_accepts _ _).2 hp]

example : CgroupRuleText "a 7:* rmw".toList ⟨.all, .integer 7, .all, ⟨true, true, true⟩⟩ := (C44_cgroup_rule_accepts _ _).1 rfl

theorem majorMinor_display {m : MajorMinorNumber} (h : MajorMinorOk m) : MajorMinorText m.display m := by
  cases m with
  | all => exact .star
  | integer n => exact .number (uint_showNat h)

/-- C44: a device cgroup rule prints to text that parses back to it. -/
theorem C44_cgroup_rule_round_trip (r : CgroupRule) (h1 : MajorMinorOk r.major) (h2 : MajorMinorOk r.minor) :
    CgroupRule.fromStr r.display = .ok r := by
  rw [C44_cgroup_rule_accepts]
  obtain ⟨k, a, b, p⟩ := r
  have hk : KindText [k.asChar] k := by cases k <;> constructor
  simp only [CgroupRule.display]
  split
  · have := CgroupRuleText.withPermissions hk (majorMinor_display h1) (majorMinor_display h2)
      (permissions_display (p := p))
    simpa using this
  · rename_i hp
    have := CgroupRuleText.plain hk (majorMinor_display h1) (majorMinor_display h2) (permissions_any_false hp)
    simpa using this

example : CgroupRule.fromStr "a 7:* rmw".toList = .ok ⟨.all, .integer 7, .all, ⟨true, true, true⟩⟩ := by rfl
example : CgroupRule.fromStr "c :3".toList = .ok ⟨.char, .all, .integer 3, ⟨false, false, false⟩⟩ := by rfl
example : CgroupRule.fromStr "c 65536:3".toList = .error (.majorMinorNumber .posOverflow) := by rfl
example : CgroupRule.fromStr "x 1:3".toList = .error (.kind "x".toList) := by rfl
example : MajorMinorOk (CgroupRule.mk .block (.integer 65535) .all ⟨true, false, false⟩).major :=
  Nat.le_refl _
example : (CgroupRule.mk .block (.integer 65535) .all ⟨true, false, false⟩).display = "b 65535:* r".toList := by decide

end Props
