import Verif.Model.UnitValue
import Verif.Lemmas.ValidateApi
import Verif.Props.Validation
/-
C11 (UUIDs), C12 and C37 (unit values).
-/
namespace Sadl.Props
open Sadl Sadl.Spec

/-! ### C11 -/

/-- C11: `ParseUUID` returns its argument or the empty UUID. -/
theorem C11_argument_or_empty (s : String) : parseUUID s = s ∨ parseUUID s = "" := by
  unfold parseUUID
  dsimp only
  split_ifs
  · exact Or.inr rfl
  · exact Or.inr rfl
  · exact Or.inl rfl

/-- C11, what is accepted: exactly the strings of 36 bytes with dashes in the four places.
The other 32 bytes are not required to be hexadecimal digits (`C11_refuted`). -/
theorem C11_accepts_iff (s : String) : parseUUID s = s ∧ s ≠ "" ↔ UuidShaped s := by
  have h := validateUUID_vok (v := .str s)
  have h1 : validateUUID (.str s) = vok ↔ UuidShaped s := by
    rw [h]
    constructor
    · rintro (⟨t, e⟩ | ⟨t, e, ht⟩)
      · cases e
      · rcases e with e | e
        · cases e; exact ht
        · cases e
    · exact fun hs => Or.inr ⟨s, Or.inl rfl, hs⟩
  rw [← h1]
  unfold validateUUID
  rcases C11_argument_or_empty s with e | e
  · by_cases hs : s = "" <;> simp [e, hs]
  · by_cases hs : s = ""
    · simp [e, hs]
    · have hs' : ¬ "" = s := fun h => hs h.symm
      simp [e, hs']

/-- `c` is a hexadecimal digit. -/
def IsHex (c : Char) : Prop := (48 ≤ c.toNat ∧ c.toNat ≤ 57) ∨ (97 ≤ c.toNat ∧ c.toNat ≤ 102) ∨ (65 ≤ c.toNat ∧ c.toNat ≤ 70)

theorem ascii_bytes (cs : List Char) (h : ∀ c ∈ cs, c.toNat < 128) :
    (cs.flatMap String.utf8EncodeChar).length = cs.length := by
  induction cs with
  | nil => rfl
  | cons c r ih =>
    have hc : c.utf8Size = 1 := by
      rw [Char.utf8Size_eq_one_iff, UInt32.le_iff_toNat_le]
      have h1 : c.toNat < 128 := h c (by simp)
      have h2 : c.val.toNat = c.toNat := rfl
      have h3 : (127 : UInt32).toNat = 127 := rfl
      omega
    simp only [List.flatMap_cons, List.length_append, List.length_cons]
    rw [ih (fun d hd => h d (by simp [hd])), String.length_utf8EncodeChar, hc, Nat.add_comm]

/-- C11: every canonical 8-4-4-4-12 hexadecimal string is accepted and returned unchanged. -/
theorem C11_canonical_accepted (a b c d e : List Char)
    (ha : a.length = 8) (hb : b.length = 4) (hc : c.length = 4) (hd : d.length = 4) (he : e.length = 12)
    (hex : ∀ x ∈ a ++ b ++ c ++ d ++ e, IsHex x) (s : String)
    (hs : s.toList = a ++ '-' :: b ++ '-' :: c ++ '-' :: d ++ '-' :: e) : parseUUID s = s ∧ s ≠ "" := by
  rw [C11_accepts_iff]
  have hasc : ∀ l : List Char, (∀ x ∈ l, IsHex x) → ∀ x ∈ l, x.toNat < 128 := by
    intro l hl x hx
    rcases hl x hx with h | h | h <;> omega
  simp only [List.mem_append] at hex
  have A := ascii_bytes a (hasc _ fun x hx => hex x (by tauto))
  have B := ascii_bytes b (hasc _ fun x hx => hex x (by tauto))
  have C := ascii_bytes c (hasc _ fun x hx => hex x (by tauto))
  have D := ascii_bytes d (hasc _ fun x hx => hex x (by tauto))
  have E := ascii_bytes e (hasc _ fun x hx => hex x (by tauto))
  have dash : String.utf8EncodeChar '-' = [45] := by decide
  refine ⟨a.flatMap String.utf8EncodeChar, b.flatMap String.utf8EncodeChar, c.flatMap String.utf8EncodeChar,
    d.flatMap String.utf8EncodeChar, e.flatMap String.utf8EncodeChar, by omega, by omega, by omega, by omega,
    by omega, ?_⟩
  rw [hs]
  simp only [List.flatMap_append, List.flatMap_cons, dash, List.cons_append, List.nil_append]

example : parseUUID "1ce437b0-1dd2-11b2-81ef-003ee1be85f9" = "1ce437b0-1dd2-11b2-81ef-003ee1be85f9" := by decide

/-- C11 refuted in its "only" direction: a string without hexadecimal digits is accepted. -/
theorem C11_refuted : ∃ s : String, parseUUID s = s ∧ s ≠ "" ∧ ¬ ∀ c ∈ s.toList, IsHex c ∨ c = '-' := by
  refine ⟨"zzzzzzzz-zzzz-zzzz-zzzz-zzzzzzzzzzzz", by decide, by decide, ?_⟩
  intro h
  have := h 'z' (by decide)
  simp [IsHex] at this

/-! ### C12 -/

/-- C12 for numbers written with at least three characters: a string that
`ParseUnitValue` accepts and whose number and unit are accepted by the declared types is
accepted by `Validate` when passed as `*string`.  Missing: shorter numbers
(`C12_short_number_rejected`) and plain `string` values (`C12_plain_string_rejected`). -/
theorem C12_parsed_validates_partial (lib : Lib) (s : Schema) (m : Model) (h : newModel s = .ok m)
    (td : TypeDef) (htd : td ∈ s.types) (ht : td.ts.type = "UnitValue")
    (number unit : String) (hlen : 3 ≤ number.utf8ByteSize) (hsp : ' ' ∉ number.toList) (d : BigFloat)
    (hp : parseUnitValue lib (number ++ " " ++ unit) = some (d, unit))
    (hv : Accepts lib m td.ts.value (.dec d)) (hu : Accepts lib m td.ts.unit (.str unit)) :
    Accepts lib m td.name (.strPtr (number ++ " " ++ unit)) := by
  have hspl : splitFirst ' ' (number ++ " " ++ unit).toList = some (number.toList, unit.toList) := by
    rw [splitFirst_some]
    refine ⟨by simp [String.toList_append], hsp⟩
  have hd : lib.parseDecimal number = some d := by
    simp only [parseUnitValue, hspl, String.ofList_toList] at hp
    cases hd : lib.parseDecimal number with
    | none => simp [hd] at hp
    | some d' =>
      simp only [hd] at hp
      split_ifs at hp
      simp only [Option.some.injEq, Prod.mk.injEq] at hp
      rw [hp.1]
  rw [accepts_iff] at hv hu
  obtain ⟨tv, hv1, n1, hv2⟩ := hv
  obtain ⟨tu, hu1, n2, hu2⟩ := hu
  rw [accepts_step h (Or.inl ⟨td, htd, rfl, rfl⟩)]
  refine ⟨max n1 n2, ?_⟩
  rw [step_unitValue ht, validateUnitValue_vok]
  refine ⟨number, unit, d, tv, tu, rfl, hsp, ?_, hd, hv1, validateSpec_vok_mono (le_max_left _ _) hv2, hu1,
    validateSpec_vok_mono (le_max_right _ _) hu2⟩
  unfold Bytes; exact_mod_cast hlen

/-- C12 is false for short numbers: `Validate` rejects every unit value whose number has
fewer than three bytes, whatever the declared types. -/
theorem C12_short_number_rejected (lib : Lib) (s : Schema) (m : Model) (h : newModel s = .ok m)
    (td : TypeDef) (htd : td ∈ s.types) (ht : td.ts.type = "UnitValue")
    (number unit : String) (hlen : number.utf8ByteSize < 3) (hsp : ' ' ∉ number.toList) :
    Rejects lib m td.name (.strPtr (number ++ " " ++ unit)) := by
  have hspl : splitFirst ' ' (number ++ " " ++ unit).toList = some (number.toList, unit.toList) := by
    rw [splitFirst_some]
    refine ⟨by simp [String.toList_append], hsp⟩
  have hf : m.findType td.name = some td := (newModel_findType_iff h _ _).2 (Or.inl ⟨htd, rfl⟩)
  refine ⟨1, "Not a valid UnitValue", ?_⟩
  simp only [validate, validateNamed, hf, validateSpec, step_unitValue ht, validateUnitValue, hspl, byteLen_eq]
  rw [if_neg (by omega)]
  rfl

/-- C12 is false for values passed as a plain string. -/
theorem C12_plain_string_rejected (lib : Lib) (s : Schema) (m : Model) (h : newModel s = .ok m)
    (td : TypeDef) (htd : td ∈ s.types) (ht : td.ts.type = "UnitValue") (text : String) :
    Rejects lib m td.name (.str text) := by
  have hf : m.findType td.name = some td := (newModel_findType_iff h _ _).2 (Or.inl ⟨htd, rfl⟩)
  refine ⟨1, "Not a valid UnitValue", ?_⟩
  simp only [validate, validateNamed, hf, validateSpec, step_unitValue ht, validateUnitValue]
  rfl

def exWeight : Schema :=
  { types := [{ name := "Weight", ts := { type := "UnitValue", value := "Decimal", unit := "String" } }] }
def exNumLib : Lib :=
  { regexMatch := fun _ _ => none
    parseDecimal := fun s => if s = "5" then some (.fin 5 0) else if s = "5.0" then some (.fin 5 0) else none
    timestampOk := fun _ => false }

/-- C12 refuted: "5 kg" parses as a unit value of conforming parts but does not validate. -/
theorem C12_refuted : ∃ (lib : Lib) (s : Schema) (m : Model), newModel s = .ok m ∧
    parseUnitValue lib "5 kg" = some (.fin 5 0, "kg") ∧
    Accepts lib m "Decimal" (.dec (.fin 5 0)) ∧ Accepts lib m "String" (.str "kg") ∧
    Rejects lib m "Weight" (.strPtr "5 kg") :=
  ⟨exNumLib, exWeight, _, rfl, by decide, ⟨1, by decide⟩, ⟨1, by decide⟩, 3, _, rfl⟩

example : ∃ m, newModel exWeight = .ok m ∧ parseUnitValue exNumLib ("5.0" ++ " " ++ "kg") = some (.fin 5 0, "kg") ∧
    Accepts exNumLib m "Weight" (.strPtr "5.0 kg") := ⟨_, rfl, by decide, 3, by decide⟩

/-! ### C37 -/

/-- C37: formatting a unit value and parsing the text gives the number and unit back,
for every unit text that is not empty, provided decimal formatting itself is faithful for
this number (math/big, not modelled) and writes no blank.  Missing: the empty unit
(`C37_refuted`). -/
theorem C37_unit_value_round_trip_partial (lib : Lib) (showDecimal : BigFloat → String) (d : BigFloat) (unit : String)
    (hu : unit ≠ "") (hd : lib.parseDecimal (showDecimal d) = some d)
    (hne : showDecimal d ≠ "") (hb : ' ' ∉ (showDecimal d).toList) :
    parseUnitValue lib (unitValueString showDecimal d unit) = some (d, unit) := by
  have hspl : splitFirst ' ' (unitValueString showDecimal d unit).toList =
      some ((showDecimal d).toList, unit.toList) := by
    rw [splitFirst_some]
    refine ⟨by simp [unitValueString, String.toList_append], hb⟩
  have pos : ∀ t : String, t ≠ "" → byteLen t.toList > 0 := by
    intro t ht
    rw [byteLen_eq]
    have : t.utf8ByteSize ≠ 0 := by
      rw [Ne, String.utf8ByteSize_eq_zero_iff]; exact ht
    omega
  simp only [parseUnitValue, hspl, String.ofList_toList, hd]
  rw [if_pos (pos _ hne), if_pos (pos _ hu)]

/-- C37: conversely, whatever was parsed from a text is given back by formatting and
parsing again: `parse ∘ format ∘ parse = parse`. -/
theorem C37_reparse (lib : Lib) (showDecimal : BigFloat → String) (text : String) (d : BigFloat) (unit : String)
    (hp : parseUnitValue lib text = some (d, unit))
    (hd : lib.parseDecimal (showDecimal d) = some d)
    (hne : showDecimal d ≠ "") (hb : ' ' ∉ (showDecimal d).toList) :
    parseUnitValue lib (unitValueString showDecimal d unit) = some (d, unit) := by
  refine C37_unit_value_round_trip_partial lib showDecimal d unit ?_ hd hne hb
  rintro rfl
  unfold parseUnitValue at hp
  split at hp
  · rename_i val u _
    cases hd' : lib.parseDecimal (String.ofList val) with
    | none => simp [hd'] at hp
    | some d' =>
      simp only [hd'] at hp
      split_ifs at hp with h1 h2
      simp only [Option.some.injEq, Prod.mk.injEq] at hp
      have : u = [] := by
        have := congrArg String.toList hp.2
        simpa using this
      rw [this] at h2
      simp [byteLen, bytesOf] at h2
  · cases hp

/-- C37: a unit value with an empty unit is never read back. -/
theorem C37_refuted (lib : Lib) (showDecimal : BigFloat → String) (d : BigFloat)
    (hb : ' ' ∉ (showDecimal d).toList) : parseUnitValue lib (unitValueString showDecimal d "") = none := by
  have hspl : splitFirst ' ' (unitValueString showDecimal d "").toList = some ((showDecimal d).toList, []) := by
    rw [splitFirst_some]
    exact ⟨by simp [unitValueString, String.toList_append], hb⟩
  simp only [parseUnitValue, hspl]
  cases lib.parseDecimal (String.ofList (showDecimal d).toList) <;> simp [byteLen, bytesOf]

example : parseUnitValue exNumLib (unitValueString (fun _ => "5") (.fin 5 0) "kg") = some (.fin 5 0, "kg") :=
  C37_unit_value_round_trip_partial _ _ _ _ (by decide) (by decide) (by decide) (by decide)

end Sadl.Props
