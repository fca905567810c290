import Verif.Lemmas.JsonString
import Verif.Props.Timestamps
import Verif.Props.UnitValues
/-
C67, C68, C69: texts in JSON.
-/
namespace Sadl.Props
open Sadl.Spec Sadl.Props.Spec

/-- The document and the text of a JSON-shaped value. -/
theorem pretty_shaped (L : JLib) {v : Value} (h : JsonShaped L v) :
    ∃ d, DocOf L v d ∧ (prettyText L v).toList = jPretty false 0 d ++ ['\n'] ∧
      jRead (prettyText L v).toList = if docDepth d ≤ 10000 then some d else none := by
  obtain ⟨d, hd⟩ := docOf_shaped L h
  have e : (prettyText L v).toList = jPretty false 0 d ++ ['\n'] := by
    rw [prettyText, hd.1]
    simp
  exact ⟨d, hd, e, by rw [e, jRead_pretty d hd.2.1]; rfl⟩

theorem doc_null {L : JLib} {v : Value} {d : JDoc} (hs : JsonShaped L v) (h : DocOf L v d) (e : d = .null) : v = .null := by
  subst e
  have h1 := h.2.2.1
  rw [jDecode] at h1
  cases hs <;> first | rfl | (simp [canon] at h1)

theorem doc_obj {L : JLib} {v : Value} {d : JDoc} (hs : JsonShaped L v) (h : DocOf L v d) {kvs : List (String × JDoc)}
    (e : d = .obj kvs) : ∃ kws, v = .obj kws := by
  subst e
  have h1 := h.2.2.1
  rw [jDecode] at h1
  cases hs with
  | obj _ _ => exact ⟨_, rfl⟩
  | null => simp [canon] at h1
  | bool b => simp [canon] at h1
  | str b => simp [canon] at h1
  | num b => simp [canon] at h1
  | arr b => simp [canon] at h1

theorem obj_doc {L : JLib} {kvs : List (String × Value)} {d : JDoc} (h : DocOf L (.obj kvs) d) : ∃ m, d = .obj m := by
  have h1 := h.1
  rw [jEncode] at h1
  cases hm : jEncodeMembers L kvs with
  | none => rw [hm] at h1; cases h1
  | some m => rw [hm] at h1; exact ⟨_, (Option.some.inj h1).symm⟩

/-- C67: data that holds a JSON object nested at most 10000 deep, written as text
(`Data.String`, `DataToFile`), is read back (`DataFromJsonString`, `DataFromFile`) as the same
data, up to the order of keys. -/
theorem C67_reads_back (L : JLib) (kvs : List (String × Value)) (h : JsonShaped L (.obj kvs))
    (hn : NestedAtMost 10000 (.obj kvs)) :
    ∃ w, dataFromJson L (dataString L (.obj kvs)) = some w ∧ Reordered (.obj kvs) w := by
  obtain ⟨d, hd, -, hr⟩ := pretty_shaped L h
  rw [if_pos ((hd.2.2.2 _).2 hn)] at hr
  refine ⟨canon (.obj kvs), ?_, reordered_canon L h⟩
  obtain ⟨m, rfl⟩ := obj_doc hd
  rw [dataFromJson, dataString, hr]
  exact hd.2.2.1

/-- C67: data nested deeper than that is written as well, but the text cannot be read back. -/
theorem C67_too_deep (L : JLib) (v : Value) (h : JsonShaped L v) (hn : ¬ NestedAtMost 10000 v) :
    dataFromJson L (dataString L v) = none ∧ dataUnmarshal L (dataString L v) = none := by
  obtain ⟨d, hd, -, hr⟩ := pretty_shaped L h
  rw [if_neg (fun hh => hn ((hd.2.2.2 _).1 hh))] at hr
  constructor
  · rw [dataFromJson, dataString, hr]
  · rw [dataUnmarshal, dataString, hr]; rfl

/-- C67: data that is not an object is written as well, but the text is rejected. -/
theorem C67_not_an_object (L : JLib) (v : Value) (h : JsonShaped L v) (h0 : v ≠ .null) (ho : ∀ kvs, v ≠ .obj kvs) :
    dataFromJson L (dataString L v) = none := by
  obtain ⟨d, hd, -, hr⟩ := pretty_shaped L h
  rw [dataFromJson, dataString, hr]
  split
  · rename_i he
    split_ifs at he
    exact absurd (doc_null h hd (Option.some.inj he)) h0
  · rename_i he
    split_ifs at he
    obtain ⟨kws, hk⟩ := doc_obj h hd (Option.some.inj he)
    exact absurd hk (ho kws)
  · rfl

/-- C67: as a part of a larger document (`MarshalJSON`, `UnmarshalJSON`) any JSON value is read back. -/
theorem C67_unmarshal (L : JLib) (v : Value) (h : JsonShaped L v) (hn : NestedAtMost 10000 v) :
    ∃ w, dataUnmarshal L (dataString L v) = some w ∧ Reordered v w := by
  obtain ⟨d, hd, -, hr⟩ := pretty_shaped L h
  rw [if_pos ((hd.2.2.2 _).2 hn)] at hr
  refine ⟨canon v, ?_, reordered_canon L h⟩
  rw [dataUnmarshal, dataString, hr]
  exact hd.2.2.1

/-- C68: two JSON values are reported as equivalent exactly if they differ at most in the order
of the keys of objects. -/
theorem C68_equivalent (L : JLib) (v w : Value) (hv : JsonShaped L v) (hw : JsonShaped L w) :
    equivalent L v w = true ↔ Reordered v w := by
  obtain ⟨d, hd, ed, -⟩ := pretty_shaped L hv
  obtain ⟨d', hd', ed', -⟩ := pretty_shaped L hw
  rw [equivalent, decide_eq_true_eq]
  constructor
  · intro h
    have h1 : jPretty false 0 d ++ ['\n'] = jPretty false 0 d' ++ ['\n'] := by rw [← ed, ← ed', h]
    have h2 : d = d' := jPretty_inj hd.2.1 hd'.2.1 (List.append_inj_left' h1 rfl)
    have h3 : canon v = canon w := by
      have a := hd.2.2.1
      rw [h2, hd'.2.2.1] at a
      exact (Option.some.inj a).symm
    have h4 := reordered_canon L hv
    rw [h3] at h4
    exact reordered_trans h4 (reordered_symm (reordered_canon L hw))
  · intro h
    have h3 := canon_reordered L h hv hw
    have h5 : prettyText L v = prettyText L w := by
      have a := canon_encode L hv hd.1
      have b := canon_encode L hw hd'.1
      rw [h3, b] at a
      have e : d' = d := Option.some.inj a
      rw [prettyText, prettyText, hd.1, hd'.1, e]
    exact h5

/-- A Go library that knows the numbers 1 and 2. -/
def exJLib : JLib :=
  { showFloat := fun f => if f = .fin 1 0 then ['1'] else "2.5e+1".toList
    parseFloat := fun t => if t = ['1'] then some (.fin 1 0) else some (.fin 25 0)
    showDecimal := fun f => if f = .inf false then "+Inf" else "5"
    encodeOther := fun _ => none
    sprint := fun _ => "" }

theorem exJLib_one : PrintsBack exJLib (.fin 1 0) :=
  ⟨by simp, ⟨[], ['1'], [], [], rfl, Or.inl rfl, Or.inr ⟨'1', [], rfl, by decide, by intro c hc; simp at hc; subst hc; decide⟩,
    Or.inl rfl, Or.inl rfl⟩, by decide⟩

theorem exJLib_25 : PrintsBack exJLib (.fin 25 0) := by
  have dig : ∀ c : Char, c = '0' ∨ c = '1' ∨ c = '2' ∨ c = '5' → '0' ≤ c ∧ c ≤ '9' := by
    rintro c (rfl | rfl | rfl | rfl) <;> decide
  refine ⟨by simp, ⟨[], ['2'], ['.', '5'], ['e', '+', '1'], rfl, Or.inl rfl, Or.inr ⟨'2', [], rfl, by decide, ?_⟩,
    Or.inr ⟨['5'], rfl, by decide, ?_⟩, Or.inr ⟨'e', ['+'], ['1'], rfl, Or.inl rfl, Or.inr (Or.inl rfl), by decide, ?_⟩⟩, by decide⟩
  all_goals
    intro c hc
    simp at hc
    exact dig c (by tauto)

/-- The data `{"b": [1, "a\"\n", null], "a": {"x": 25, "": true}}`. -/
def exJson : List (String × Value) :=
  [("b", .arr [.float64 (.fin 1 0), .str "a\"\n", .null]), ("a", .obj [("x", .float64 (.fin 25 0)), ("", .bool true)])]

theorem exJson_shaped : JsonShaped exJLib (.obj exJson) := by
  refine .obj (by decide) ?_
  intro kv hkv
  simp only [exJson, List.mem_cons, List.not_mem_nil, or_false] at hkv
  rcases hkv with rfl | rfl
  · refine .arr ?_
    intro x hx
    simp only [List.mem_cons, List.not_mem_nil, or_false] at hx
    rcases hx with rfl | rfl | rfl
    · exact .num exJLib_one
    · exact .str _
    · exact .null
  · refine .obj (by decide) ?_
    intro kv hkv
    simp only [List.mem_cons, List.not_mem_nil, or_false] at hkv
    rcases hkv with rfl | rfl
    · exact .num exJLib_25
    · exact .bool _

example : JsonShaped exJLib (.obj exJson) ∧ NestedAtMost 10000 (.obj exJson) ∧
    dataString exJLib (.obj exJson) =
      "{\n  \"a\": {\n    \"\": true,\n    \"x\": 2.5e+1\n  },\n  \"b\": [\n    1,\n    \"a\\\"\\n\",\n    null\n  ]\n}\n" := by
  refine ⟨exJson_shaped, ?_, by decide +kernel⟩
  refine .obj ?_
  intro kv hkv
  simp only [exJson, List.mem_cons, List.not_mem_nil, or_false] at hkv
  rcases hkv with rfl | rfl
  · refine .arr ?_
    intro x hx
    simp only [List.mem_cons, List.not_mem_nil, or_false] at hx
    rcases hx with rfl | rfl | rfl <;> exact .leaf (by simp) (by simp)
  · refine .obj ?_
    intro kv hkv
    simp only [List.mem_cons, List.not_mem_nil, or_false] at hkv
    rcases hkv with rfl | rfl <;> exact .leaf (by simp) (by simp)

/-- `n` arrays inside each other. -/
def deepArr : Nat → Value
  | 0 => .null
  | n + 1 => .arr [deepArr n]

theorem deepArr_shaped (L : JLib) (n : Nat) : JsonShaped L (deepArr n) := by
  induction n with
  | zero => exact .null
  | succ n ih => exact .arr (by intro x hx; simp at hx; subst hx; exact ih)

theorem deepArr_nested (n m : Nat) : NestedAtMost m (deepArr n) ↔ n ≤ m := by
  induction n generalizing m with
  | zero => exact ⟨fun _ => Nat.zero_le _, fun _ => .leaf (by simp [deepArr]) (by simp [deepArr])⟩
  | succ n ih =>
    rw [deepArr, nested_arr]
    constructor
    · rintro ⟨k, rfl, h⟩
      have := (ih k).1 (h _ (by simp))
      omega
    · intro h
      refine ⟨m - 1, by omega, fun x hx => ?_⟩
      simp at hx; subst hx
      exact (ih _).2 (by omega)

/-- Some JSON values are too deep. -/
example : JsonShaped exJLib (deepArr 10001) ∧ ¬ NestedAtMost 10000 (deepArr 10001) :=
  ⟨deepArr_shaped _ _, by rw [deepArr_nested]; omega⟩

example : equivalent exJLib (.obj exJson) (.obj exJson.reverse) = true ∧
    equivalent exJLib (.obj exJson) (.obj exJson.tail) = false := by decide +kernel

/-! ### C69 -/

/-- C69: a UUID is read back from its JSON text exactly if it has the shape of one. -/
theorem C69_uuid_partial (u : String) : uuidUnmarshal (uuidMarshal u) = some u ↔ UuidShaped u := by
  have h1 : jToString (uuidMarshal u) = some u := by
    have e : uuidMarshal u = '"' :: (u.toList.flatMap (jEscape true) ++ ['"']) := rfl
    rw [e, jToString_open]
    obtain ⟨us, h1, h2⟩ := jUnits_quoted true u.toList []
    rw [h1]
    simp [jSkip, h2]
  rw [uuidUnmarshal, h1, Option.bind_some, ← C11_accepts_iff]
  constructor
  · intro h
    split_ifs at h with h0
    have h2 := Option.some.inj h
    exact ⟨h2, fun hu => h0 (by rw [h2, hu])⟩
  · rintro ⟨h2, h3⟩
    rw [if_neg (by rw [h2]; exact h3), h2]

/-- C69 refuted for the empty UUID, which is what an unset UUID is: its JSON text is rejected. -/
theorem C69_refuted_uuid : uuidMarshal "" = "\"\"".toList ∧ uuidUnmarshal (uuidMarshal "") = none := by decide +kernel

/-- C69: a timestamp is read back from its JSON text as the same instant, cut to the
millisecond, in UTC and from the year 1000 to the year 9999. -/
theorem C69_timestamp_partial (t : Civil) (hv : ValidCivil t) (hutc : t.offset = 0)
    (hy1 : 1000 ≤ t.year) (hy2 : t.year ≤ 9999) (hz : isZero t = false) :
    ∃ t', timestampUnmarshal (timestampMarshal isZero t) = some t' ∧
      instant t' = instant t - instant t % 1000000 ∧ t'.offset = 0 := by
  obtain ⟨t', h1, h2⟩ := C36_round_trip_partial t hv hutc hy1 hy2 hz
  refine ⟨t', ?_, h2⟩
  rw [timestampUnmarshal, timestampMarshal, jToString_plain _ (showTimestamp_plain _ _), Option.bind_some]
  simpa using h1

/-- C69 refuted for the zero timestamp: the text written for it is rejected. -/
theorem C69_refuted_timestamp (t : Civil) (hz : isZero t = true) :
    timestampMarshal isZero t = "\"\"".toList ∧ timestampUnmarshal (timestampMarshal isZero t) = none := by
  have e : timestampMarshal isZero t = "\"\"".toList := by
    rw [timestampMarshal, showTimestamp, hz]; rfl
  refine ⟨e, ?_⟩
  rw [e]
  decide +kernel

example : isZero { year := 1, month := 1, day := 1, hour := 0, minute := 0, second := 0, nano := 0 } = true := by decide

/-- C69: a unit value is read back from its JSON text exactly if its unit holds no quote, no
backslash and no control character, provided the number is printed without blanks, quotes and
the like, and parsed back (math/big). -/
theorem C69_unit_value_partial (lib : Lib) (showDecimal : BigFloat → String) (d : BigFloat) (unit : String)
    (hu : unit ≠ "") (hd : lib.parseDecimal (showDecimal d) = some d) (hne : showDecimal d ≠ "")
    (hb : ' ' ∉ (showDecimal d).toList) (hp : ∀ c ∈ (showDecimal d).toList, PlainChar c) :
    unitValueUnmarshal lib (unitValueMarshal showDecimal d unit) = some (d, unit) ↔ ∀ c ∈ unit.toList, PlainChar c := by
  have hpl : ∀ c ∈ (showDecimal d).toList ++ [' '], PlainChar c := by
    intro c hc
    rcases List.mem_append.1 hc with h | h
    · exact hp c h
    · simp at h; subst h; exact ⟨by decide, by decide, by decide⟩
  have hl : (unitValueString showDecimal d unit).toList = ((showDecimal d).toList ++ [' ']) ++ unit.toList := by
    simp [unitValueString, String.toList_append]
  constructor
  · intro h
    rw [unitValueUnmarshal, unitValueMarshal, hl] at h
    cases hj : jToString ('"' :: ((showDecimal d).toList ++ [' '] ++ unit.toList) ++ ['"']) with
    | none => rw [hj] at h; cases h
    | some w =>
      rw [hj, Option.bind_some] at h
      obtain ⟨s', hw, hs⟩ := jToString_prefix _ _ hpl w hj
      have hs' : s' = unit.toList := by
        subst hw
        have hspl : splitFirst ' ' ((showDecimal d).toList ++ [' '] ++ s') = some ((showDecimal d).toList, s') := by
          rw [splitFirst_some]
          exact ⟨by simp, hb⟩
        rw [parseUnitValue, String.toList_ofList, hspl] at h
        simp only [String.ofList_toList, hd] at h
        split_ifs at h
        · simp at h
          rw [← h]; simp
      exact plain_of_jToString _ _ hpl (hs hs')
  · intro h
    rw [unitValueUnmarshal, unitValueMarshal, hl, jToString_plain, ← hl]
    · simpa using C37_unit_value_round_trip_partial lib showDecimal d unit hu hd hne hb
    · intro c hc
      rcases List.mem_append.1 hc with h1 | h1
      · exact hpl c h1
      · exact h c h1

/-- C69 refuted for units with a backslash: the unit `a\tb` comes back with a tab in it. -/
theorem C69_refuted_unit_value :
    unitValueUnmarshal exNumLib (unitValueMarshal (fun _ => "5") (.fin 5 0) "a\\tb") = some (.fin 5 0, "a\tb") ∧
    unitValueUnmarshal exNumLib (unitValueMarshal (fun _ => "5") (.fin 5 0) "5\"") = none := by decide +kernel

example : exNumLib.parseDecimal "5" = some (.fin 5 0) ∧ ' ' ∉ "5".toList ∧ (∀ c ∈ "5".toList, PlainChar c) ∧
    ∀ c ∈ "kg per m²".toList, PlainChar c := by
  refine ⟨by decide, by decide, ?_, ?_⟩ <;> (unfold PlainChar; decide)

/-- C69: a decimal whose text is a JSON number that parses back is written and read back. -/
theorem C69_decimal_partial (L : JLib) (lib : Lib) (d : BigFloat) (hj : JsonNumber (L.showDecimal d).toList)
    (hd : lib.parseDecimal (L.showDecimal d) = some d) :
    prettyText L (.dec d) = String.ofList (decimalMarshal L d ++ ['\n']) ∧
    decimalUnmarshal lib (decimalMarshal L d) = some d := by
  constructor
  · rw [prettyText, jEncode]
    simp [jIsNumber, jNumber_of hj, decimalMarshal, jPretty]
  · rw [decimalUnmarshal, decimalMarshal, String.ofList_toList, hd]

/-- C69 refuted for infinite decimals: what is written for them is not a JSON text. -/
theorem C69_refuted_decimal (L : JLib) (d : BigFloat) (h : L.showDecimal d = "+Inf" ∨ L.showDecimal d = "-Inf") :
    jRead (decimalMarshal L d) = none ∧ jEncode L (.dec d) = none := by
  have key : ∀ t : String, L.showDecimal d = t → jRead t.toList = none → jNumber t.toList = none →
      jRead (decimalMarshal L d) = none ∧ jEncode L (.dec d) = none := by
    intro t ht h1 h2
    refine ⟨by rw [decimalMarshal, ht, h1], ?_⟩
    rw [jEncode]
    simp [jIsNumber, ht, h2]
  rcases h with h | h
  · exact key _ h (by decide +kernel) (by decide +kernel)
  · exact key _ h (by decide +kernel) (by decide +kernel)

end Sadl.Props
