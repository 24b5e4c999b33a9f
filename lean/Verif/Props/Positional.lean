import Verif.Props.Structs
import Verif.Proofs.Positional

/- C101: structs given as a sequence. -/

namespace Props
open Rust Compose Compose.Derive Compose.Codecs Compose.Structs Spec Spec.Longhand Proofs

/-- C101: where unknown keys are ignored, a sequence is read exactly if it has no more values than the struct has keys, and as
what the mapping of the keys in order to these values is read as. -/
theorem C101_sequence (E : Env) (s : StructInfo) (hs : s ∈ structs E) (hr : s.rest = .ignored) (vs : List Content)
    (r : Record s.fields) :
    (struct s.fields).de (.seq vs) = .ok r ↔
      vs.length ≤ s.keys.length ∧ (struct s.fields).de (Derive.mapping (s.keyTexts.zip vs)) = .ok r := by
  rw [C70_reads E s hs, C70_reads E s hs]
  simp only [givenAs_seq, hr, true_and]
  constructor
  · rintro ⟨es, ⟨h1, rfl⟩, h2⟩
    exact ⟨by simpa [StructInfo.keyTexts] using h1, _, .mapping, h2⟩
  · rintro ⟨h1, es, h2, h3⟩
    refine ⟨es, ⟨by simpa [StructInfo.keyTexts] using h1, ?_⟩, h3⟩
    have := (givenAs_other (fun _ h => by cases h)).1 h2
    have := congrArg entriesOf this
    rw [Proofs.entriesOf_mapping, Proofs.entriesOf_mapping] at this
    exact (Option.some.inj this).symm

/-- `extends: [web, base.yaml]` is `extends: {service: web, file: base.yaml}`. -/
example : (struct Structs.extend).de (.seq [.str "web".toList, .str "base.yaml".toList]) =
      (struct Structs.extend).de (Derive.mapping
        [("service".toList, .str "web".toList), ("file".toList, .str "base.yaml".toList)]) ∧
    (struct Structs.extend).de (.seq [.str "web".toList, .str "base.yaml".toList]) ≠ .err () :=
  ⟨rfl, fun h => by cases h⟩

/-- A dependency with a condition only: what is missing at the end has its default. -/
example : ∃ r, (struct Structs.dependency).de (.seq [.str "service_healthy".toList]) = .ok r ∧ r.2.2.1 = true := ⟨_, rfl, rfl⟩

/-- The hypotheses of the theorem for a dependency; a fourth value is one too many. -/
example (r : Record Structs.dependency) : (struct Structs.dependency).de
    (.seq [.str "service_healthy".toList, .bool true, .bool true, .bool true]) ≠ .ok r := fun h =>
  absurd ((C101_sequence sampleEnv ⟨Structs.dependency, ["condition", "restart", "required"], ["condition"], [], .ignored, false⟩
    (by simp [structs, parts]) rfl _ r).1 h).1 (by decide)

/-- C101: a struct that does something with other keys than its own is never read from a sequence. -/
theorem C101_no_sequence (E : Env) (s : StructInfo) (hs : s ∈ structs E) (hr : s.rest ≠ .ignored) (vs : List Content) :
    (struct s.fields).de (.seq vs) = .err () := by
  have hrest := (all_known E s hs).rest
  have hf : ¬ noFlat s.fields = true := by
    cases he : s.rest with
    | ignored => exact absurd he hr
    | extensions => rw [he] at hrest; exact getLast_flat hrest
    | common => rw [he] at hrest; exact getLast_flat hrest
  show (if s.fields.all Item.isField then decodeSeq s.fields vs else .err ()) = .err ()
  rw [if_neg fun h => hf (noFlat_iff.1 h)]

example (vs : List Content) : (struct (Structs.network sampleEnv)).de (.seq vs) = .err () :=
  C101_no_sequence sampleEnv _ (networkInfo_mem _) (by decide) vs

/-- C101: apart from sequences, a struct is read from mappings only. -/
theorem C101_otherwise (E : Env) (s : StructInfo) (hs : s ∈ structs E) (c : Content) (hc : ∀ vs, c ≠ .seq vs) (r : Record s.fields) :
    (struct s.fields).de c = .ok r ↔ ∃ es, c = Derive.mapping es ∧ StandsFor s.keyTexts es s.fields r := by
  rw [C70_reads E s hs]
  simp only [givenAs_other hc]

example : (struct (Structs.network sampleEnv)).de (Derive.mapping sampleNetwork) = .ok sampleNetworkRecord :=
  (C101_otherwise sampleEnv _ (networkInfo_mem _) _ (fun _ h => by cases h) _).2
    ((C101_otherwise sampleEnv _ (networkInfo_mem _) _ (fun _ h => by cases h) _).1 rfl)

set_option maxRecDepth 10000 in
/-- A service whose block device limits and dependencies are given as lists is the service with mappings. -/
example : ∃ r, (struct (Structs.service sampleEnv)).de (Derive.mapping
      [("blkio_config".toList, .seq [.seq [.seq [.str "/dev/sda".toList, .str "1mb".toList]]]),
        ("depends_on".toList, Derive.mapping [("db".toList, .seq [.str "service_healthy".toList])])]) = .ok r ∧
    (struct (Structs.service sampleEnv)).de (Derive.mapping
      [("blkio_config".toList, Derive.mapping [("device_read_bps".toList,
          .seq [Derive.mapping [("path".toList, .str "/dev/sda".toList), ("rate".toList, .str "1mb".toList)]])]),
        ("depends_on".toList, Derive.mapping
          [("db".toList, Derive.mapping [("condition".toList, .str "service_healthy".toList)])])]) = .ok r := ⟨_, rfl, rfl⟩

/-- C101: a Compose file in which settings of services (limits of block devices, dependencies, development, extends) are given as
lists of values is read exactly if the file with keys for these values is, and as the same value. -/
theorem C101_file (E : Env) (doc : Content) (r : Record (Structs.compose E)) :
    (struct (Structs.compose E)).de doc = .ok r ↔ (struct (Structs.compose E)).de (fileWithKeys doc) = .ok r := readSame_file doc r

/-- A service with lists. -/
def listedService : Content := Derive.mapping
  [("blkio_config".toList, .seq [.seq [.seq [.str "/dev/sda".toList, .str "1mb".toList]]]),
    ("depends_on".toList, Derive.mapping [("db".toList, .seq [.str "service_healthy".toList])])]

set_option maxRecDepth 20000 in
/-- A file with this service, what it is with keys, and that it is read. -/
example : fileWithKeys (Derive.mapping [("services".toList, Derive.mapping [("web".toList, listedService)])]) =
      Derive.mapping [("services".toList, Derive.mapping [("web".toList, Derive.mapping
      [("blkio_config".toList, Derive.mapping [("device_read_bps".toList,
          .seq [Derive.mapping [("path".toList, .str "/dev/sda".toList), ("rate".toList, .str "1mb".toList)]])]),
        ("depends_on".toList, Derive.mapping
          [("db".toList, Derive.mapping [("condition".toList, .str "service_healthy".toList)])])])])] ∧
    ∃ r, (struct (Structs.compose sampleEnv)).de
      (Derive.mapping [("services".toList, Derive.mapping [("web".toList, listedService)])]) = .ok r := ⟨rfl, _, rfl⟩

end Props
