import Verif.Spec.Positional
import Verif.Proofs.LonghandBack
import Verif.Props.Structs

/- Rewriting lists of values to mappings changes nothing of what is read. -/

namespace Proofs
open Rust Compose Compose.Derive Compose.Codecs Compose.Structs Spec Spec.Longhand Props

/-- The rewritten document is read as the same value. -/
def ReadSame {α : Type} (c : Codec α) (g : Content → Content) : Prop := ∀ v x, c.de v = .ok x ↔ c.de (g v) = .ok x

section
variable {α : Type} {c : Codec α} {g g' : Content → Content}

theorem ReadSame.turns (t : ReadSame c g) : Turns c g id := fun v x h => (t v x).1 h

theorem ReadSame.back (t : ReadSame c g) : Back c g := fun v y h => ⟨y, (t v y).2 h⟩

theorem readSame_of (t : Turns c g id) (b : Back c g) : ReadSame c g := fun v x => ⟨t v x, fun h => by
  obtain ⟨y, hy⟩ := b v x h
  have := (t v y hy).symm.trans h
  rw [hy]
  exact this⟩

theorem ReadSame.comp (t' : ReadSame c g') (t : ReadSame c g) : ReadSame c fun v => g' (g v) :=
  fun v x => (t v x).trans (t' _ x)

theorem readSame_list (t : ReadSame c g) : ReadSame (Codecs.list c) (eachItem g) :=
  readSame_of (by simpa using turns_list t.turns) (back_list t.back)

theorem readSame_option (t : ReadSame c g) (hn : ∀ x, c.de .unit ≠ .ok x) (hg : ∀ v, g v = .unit ↔ v = .unit) : ReadSame (option c) g :=
  readSame_of (by simpa using turns_option t.turns hn ((hg _).2 rfl)) (back_option t.back fun v h => (hg v).1 h)

theorem readSame_map {key : Key} (t : ReadSame c g) : ReadSame (map key c) (eachValue g) :=
  readSame_of (by have := turns_map (key := key) t.turns; simpa using this) (back_map t.back)

end

theorem place_change_id {i : Item} {is : List Item} (p : Place i is) (r : Record is) : p.change id r = r := by
  induction p with
  | here => rfl
  | there p ih => show (r.1, p.change id r.2) = r; rw [ih]; rfl

theorem readSame_struct {is : List Item} {own : List Str} [hk : Keys is own] [DistinctKeys own] {k : String} {g : Content → Content}
    {f : Field} (p : Place (.field f) is) (hf : f.key = k.toList) (t : ReadSame f.codec g) (hm : k.toList ∈ own) :
    ReadSame (struct is) (atKey k g) := by
  intro v r
  by_cases hv : ∃ vs, v = .seq vs
  · obtain ⟨vs, rfl⟩ := hv; exact Iff.rfl
  · have h1 : ∀ vs, v ≠ .seq vs := fun vs h => hv ⟨vs, h⟩
    have h2 : ∀ vs, atKey k g v ≠ .seq vs := by
      intro vs h
      cases v <;> simp [atKey] at h h1
    rw [struct_de_other h1, struct_de_other h2, entriesOf_atKey]
    cases entriesOf v with
    | none => exact Iff.rfl
    | some es =>
      show decode is es = .ok r ↔ decode is (setAt k.toList g es) = .ok r
      rw [decode_ok table_good, decode_ok table_good]
      have fwd : ∀ r, StandsFor (ownKeys is) es is r → StandsFor (ownKeys is) (setAt k.toList g es) is r := fun r h => by
        have := standsFor_place (hk.eq ▸ hm) (i := .field f) (h := id) ⟨hf, t.turns, fun _ _ => rfl⟩ p table_good.distinct r h
        rwa [place_change_id] at this
      refine ⟨fwd r, fun h => ?_⟩
      obtain ⟨r', h'⟩ := standsFor_back (hk.eq ▸ hm) (i := .field f) ⟨hf, t.back⟩ p table_good.distinct r h
      have h3 := (decode_ok (table_good (is := is)) _ _).2 h
      have h4 := (decode_ok (table_good (is := is)) _ _).2 (fwd r' h')
      have : r' = r := Outcome.ok.inj (h4.symm.trans h3)
      exact this ▸ h'

/-- Giving keys to the list of a struct. -/
theorem readSame_withKeys {is : List Item} {own : List Str} [hk : Keys is own] [DistinctKeys own] (hf : noFlat is = true) {keys : List String}
    (hkeys : own = keys.map String.toList) : ReadSame (struct is) (withKeys keys) := by
  intro v r
  cases v with
  | seq vs =>
    have h1 : (struct is).de (.seq vs) = decodeSeq is vs := by
      show (if is.all Item.isField then decodeSeq is vs else .err ()) = _
      rw [if_pos (all_fields hf)]
    have hl : (ownKeys is).length = keys.length := by rw [hk.eq, hkeys, List.length_map]
    rw [h1, decodeSeq_iff (own := ownKeys is) hf table_good.distinct, withKeys, hl]
    split
    · rename_i h
      have : Content.map ((keys.zip vs).map fun e => (.str e.1.toList, e.2)) = Derive.mapping ((ownKeys is).zip vs) := by
        rw [hk.eq, hkeys, Derive.mapping, List.zip_map_left, List.map_map]
        rfl
      rw [this, struct_de_mapping, decode_ok table_good]
      simp [h]
    · rename_i h
      rw [h1, decodeSeq_iff (own := ownKeys is) hf table_good.distinct, hl]
  | _ => exact Iff.rfl

theorem withKeys_unit {keys : List String} {v : Content} : withKeys keys v = .unit ↔ v = .unit := by
  cases v <;> simp [withKeys]
  split <;> simp

theorem atKey_unit {k : String} {g : Content → Content} {v : Content} : atKey k g v = .unit ↔ v = .unit := by
  cases v <;> simp [atKey]

theorem struct_not_unit {is : List Item} (r : Record is) : (struct is).de .unit ≠ .ok r := fun h => by cases h

theorem readSame_bpsLimit : ReadSame (struct Structs.bpsLimit) (withKeys ["path", "rate"]) := readSame_withKeys (own := bpsLimitKeys) rfl rfl
theorem readSame_iopsLimit : ReadSame (struct Structs.iopsLimit) (withKeys ["path", "rate"]) := readSame_withKeys (own := iopsLimitKeys) rfl rfl
theorem readSame_weightDevice : ReadSame (struct Structs.weightDevice) (withKeys ["path", "weight"]) := readSame_withKeys (own := weightDeviceKeys) rfl rfl
theorem readSame_dependency : ReadSame (struct Structs.dependency) (withKeys ["condition", "restart", "required"]) := readSame_withKeys (own := dependencyKeys) rfl rfl
theorem readSame_develop : ReadSame (struct Structs.develop) (withKeys ["watch"]) := readSame_withKeys (own := developKeys) rfl rfl
theorem readSame_extend : ReadSame (struct Structs.extend) (withKeys ["service", "file"]) := readSame_withKeys (own := extendKeys) rfl rfl

theorem readSame_blkio : ReadSame (struct Structs.blkioConfig) blkioWithKeys := by
  have t0 : ReadSame (struct Structs.blkioConfig)
    (withKeys ["device_read_bps", "device_read_iops", "device_write_bps", "device_write_iops", "weight", "weight_device"]) :=
    readSame_withKeys (own := blkioConfigKeys) rfl rfl
  have t1 := readSame_struct (is := Structs.blkioConfig) (k := "device_read_bps") .here rfl (readSame_list readSame_bpsLimit) (by decide +kernel)
  have t2 := readSame_struct (is := Structs.blkioConfig) (k := "device_read_iops") (.there .here) rfl (readSame_list readSame_iopsLimit) (by decide +kernel)
  have t3 := readSame_struct (is := Structs.blkioConfig) (k := "device_write_bps") (.there (.there .here)) rfl (readSame_list readSame_bpsLimit) (by decide +kernel)
  have t4 := readSame_struct (is := Structs.blkioConfig) (k := "device_write_iops") (.there (.there (.there .here))) rfl
    (readSame_list readSame_iopsLimit) (by decide +kernel)
  have t5 := readSame_struct (is := Structs.blkioConfig) (k := "weight_device") (.there (.there (.there (.there (.there .here))))) rfl
    (readSame_list readSame_weightDevice) (by decide +kernel)
  exact t1.comp (t2.comp (t3.comp (t4.comp (t5.comp t0))))

theorem readSame_dependsOn : ReadSame (shortOrLong (Codecs.set identifier) (map identifierKey (struct Structs.dependency)))
    (eachValue (withKeys ["condition", "restart", "required"])) := by
  intro v x
  cases v with
  | map es =>
    have t := readSame_map (key := identifierKey) readSame_dependency (.map es)
    simp only [shortOrLong, eachValue, Outcome.map_eq_ok] at t ⊢
    constructor
    · rintro ⟨y, h, rfl⟩; exact ⟨y, (t y).1 h, rfl⟩
    · rintro ⟨y, h, rfl⟩; exact ⟨y, (t y).2 h, rfl⟩
  | _ => exact Iff.rfl

theorem readSame_service {E : Env} : ReadSame (struct (Structs.service E)) serviceWithKeys := by
  have t1 := readSame_struct (is := Structs.service E) (own := serviceKeys) (k := "blkio_config")
    (f := ⟨"blkio_config".toList, _, option (struct Structs.blkioConfig), some none, Option.isNone⟩)
    (Place.nth 2 (opt "blkio_config" (struct Structs.blkioConfig)) rfl) rfl
    (readSame_option readSame_blkio struct_not_unit fun v => by simp only [blkioWithKeys, atKey_unit, withKeys_unit]) (by decide +kernel)
  have t2 := readSame_struct (is := Structs.service E) (own := serviceKeys) (k := "depends_on")
    (Place.nth 20 Structs.dependsOn rfl) rfl readSame_dependsOn (by decide +kernel)
  have t3 := readSame_struct (is := Structs.service E) (own := serviceKeys) (k := "develop")
    (f := ⟨"develop".toList, _, option (struct Structs.develop), some none, Option.isNone⟩)
    (Place.nth 22 (opt "develop" (struct Structs.develop)) rfl) rfl
    (readSame_option readSame_develop struct_not_unit fun v => withKeys_unit) (by decide +kernel)
  have t4 := readSame_struct (is := Structs.service E) (own := serviceKeys) (k := "extends")
    (f := ⟨"extends".toList, _, option (struct Structs.extend), some none, Option.isNone⟩)
    (Place.nth 33 (opt "extends" (struct Structs.extend)) rfl) rfl
    (readSame_option readSame_extend struct_not_unit fun v => withKeys_unit) (by decide +kernel)
  exact t1.comp (t2.comp (t3.comp t4))

theorem readSame_file {E : Env} : ReadSame (struct (Structs.compose E)) fileWithKeys :=
  readSame_struct (is := Structs.compose E) (own := composeKeys) (k := "services") (.there (.there (.there .here))) rfl
    (readSame_map readSame_service) (by decide +kernel)

end Proofs
