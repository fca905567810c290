import Verif.Spec.Tokens
/-
The notation of literal values: which token sequences denote which value.

`Lit lib ts v`: the tokens `ts` denote the value `v`.  Commas and newlines may be put
freely between the items of an array and the members of an object, so the notation
contains JSON.  The value of a number token is given by `lib.parseDecimal`, that of a
string token by `lib.unquote`.
-/
namespace Sadl.Spec

mutual
inductive Lit (lib : PLib) : List Token → Value → Prop
  | null : Lit lib [⟨.symbol, "null"⟩] .null
  | true : Lit lib [⟨.symbol, "true"⟩] (.bool true)
  | false : Lit lib [⟨.symbol, "false"⟩] (.bool false)
  | number {text d} : lib.parseDecimal text = some d → Lit lib [⟨.number, text⟩] (.dec d)
  | string {text q} : lib.unquote text = some q → Lit lib [⟨.string, text⟩] (.strPtr q)
  | array {x ts vs} : Items lib ts vs → Lit lib (⟨.openBracket, x⟩ :: ts) (.arr vs)
  | object {x ts kvs} : Members lib ts kvs → Lit lib (⟨.openBrace, x⟩ :: ts) (.obj (kvs.foldl (fun m kv => mset m kv.1 kv.2) []))
/-- The items of an array, up to the closing bracket. -/
inductive Items (lib : PLib) : List Token → List Value → Prop
  | close {x} : Items lib [⟨.closeBracket, x⟩] []
  | sep {t ts vs} : t.type = .comma ∨ t.type = .newline → Items lib ts vs → Items lib (t :: ts) vs
  | item {ts ts' v vs} : Lit lib ts v → Items lib ts' vs → Items lib (ts ++ ts') (v :: vs)
/-- The members of an object, up to the closing brace. -/
inductive Members (lib : PLib) : List Token → List (String × Value) → Prop
  | close {x} : Members lib [⟨.closeBrace, x⟩] []
  | sep {t ts kvs} : t.type = .comma ∨ t.type = .newline → Members lib ts kvs → Members lib (t :: ts) kvs
  | member {text x key ts ts' v kvs} : lib.unquote text = some key → Lit lib ts v → Members lib ts' kvs →
      Members lib (⟨.string, text⟩ :: ⟨.colon, x⟩ :: ts ++ ts') ((key, v) :: kvs)
end

mutual
/-- What the parser takes for a literal: as `Lit`, but between the members of an object
every token that is not a symbol, a string or a closing brace is passed over. -/
inductive AnyLit (lib : PLib) : List Token → Value → Prop
  | null : AnyLit lib [⟨.symbol, "null"⟩] .null
  | true : AnyLit lib [⟨.symbol, "true"⟩] (.bool true)
  | false : AnyLit lib [⟨.symbol, "false"⟩] (.bool false)
  | number {text d} : lib.parseDecimal text = some d → AnyLit lib [⟨.number, text⟩] (.dec d)
  | string {text q} : lib.unquote text = some q → AnyLit lib [⟨.string, text⟩] (.strPtr q)
  | array {x ts vs} : AnyItems lib ts vs → AnyLit lib (⟨.openBracket, x⟩ :: ts) (.arr vs)
  | object {x ts kvs} : AnyMembers lib ts kvs →
      AnyLit lib (⟨.openBrace, x⟩ :: ts) (.obj (kvs.foldl (fun m kv => mset m kv.1 kv.2) []))
inductive AnyItems (lib : PLib) : List Token → List Value → Prop
  | close {x} : AnyItems lib [⟨.closeBracket, x⟩] []
  | sep {t ts vs} : t.type = .comma ∨ t.type = .newline → AnyItems lib ts vs → AnyItems lib (t :: ts) vs
  | item {ts ts' v vs} : AnyLit lib ts v → AnyItems lib ts' vs → AnyItems lib (ts ++ ts') (v :: vs)
inductive AnyMembers (lib : PLib) : List Token → List (String × Value) → Prop
  | close {x} : AnyMembers lib [⟨.closeBrace, x⟩] []
  | skip {t ts kvs} : t.type ≠ .closeBrace → t.type ≠ .string → t.type ≠ .symbol → AnyMembers lib ts kvs →
      AnyMembers lib (t :: ts) kvs
  | member {text x key ts ts' v kvs} : lib.unquote text = some key → AnyLit lib ts v → AnyMembers lib ts' kvs →
      AnyMembers lib (⟨.string, text⟩ :: ⟨.colon, x⟩ :: ts ++ ts') ((key, v) :: kvs)
end

/-- JSON text, before tokenization: numbers and strings as they are written. -/
inductive Json where
  | null
  | bool (b : Bool)
  | num (text : String)
  | str (text : String)
  | arr (items : List Json)
  | obj (members : List (String × Json))

mutual
/-- The tokens of a JSON text. -/
def Json.toks : Json → List Token
  | .null => [sym "null"]
  | .bool true => [sym "true"]
  | .bool false => [sym "false"]
  | .num t => [Spec.num t]
  | .str t => [Spec.str t]
  | .arr [] => [punct .openBracket, punct .closeBracket]
  | .arr (x :: r) => punct .openBracket :: x.toks ++ Json.itemToks r
  | .obj [] => [punct .openBrace, punct .closeBrace]
  | .obj ((k, x) :: r) => punct .openBrace :: Spec.str k :: punct .colon :: x.toks ++ Json.memberToks r
def Json.itemToks : List Json → List Token
  | [] => [punct .closeBracket]
  | x :: r => punct .comma :: x.toks ++ Json.itemToks r
def Json.memberToks : List (String × Json) → List Token
  | [] => [punct .closeBrace]
  | (k, x) :: r => punct .comma :: Spec.str k :: punct .colon :: x.toks ++ Json.memberToks r
end

mutual
/-- The value of a JSON text, given those of its numbers and strings.  The last of several
members with the same key counts. -/
def Json.value (lib : PLib) : Json → Option Value
  | .null => some .null
  | .bool b => some (.bool b)
  | .num t => (lib.parseDecimal t).map .dec
  | .str t => (lib.unquote t).map .strPtr
  | .arr xs => (Json.values lib xs).map .arr
  | .obj ms => (Json.pairs lib ms).map (fun kvs => .obj (kvs.foldl (fun m kv => mset m kv.1 kv.2) []))
def Json.values (lib : PLib) : List Json → Option (List Value)
  | [] => some []
  | x :: r => match x.value lib, Json.values lib r with
    | some v, some vs => some (v :: vs)
    | _, _ => none
def Json.pairs (lib : PLib) : List (String × Json) → Option (List (String × Value))
  | [] => some []
  | (k, x) :: r => match lib.unquote k, x.value lib, Json.pairs lib r with
    | some key, some v, some kvs => some ((key, v) :: kvs)
    | _, _, _ => none
end

end Sadl.Spec
