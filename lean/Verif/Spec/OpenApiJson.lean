import Verif.Spec.SchemaJson
import Verif.Model.OpenApiFile
/-
Specification vocabulary for an OpenAPI document printed as JSON and read again.
-/
namespace Sadl.Spec
open Sadl

/-! ### What a document is after it was printed and read

Maps come back in the order of their keys, empty lists and maps as missing ones, and examples as
plain JSON values.  `additionalProperties` is declared as `interface{}`: it comes back as untyped data, which
nothing looks at, so it is left out. -/

/-- A default value, an example, or a value of an enumeration. -/
def valueBack (L : JLib) (v : Value) : Value := canon (asRead L v)

/-- The values of an enumeration, if any. -/
def valuesBack (L : JLib) : Option (List Value) → Option (List Value)
  | none => none
  | some [] => none
  | some vs => some (vs.map (valueBack L))

/-- The entries of a map. -/
def entriesBack {α : Type} (f : α → α) (m : List (String × α)) : List (String × α) := jSort (m.map fun p => (p.1, f p.2))

mutual
def oschemaBack (L : JLib) : OSchema → OSchema
  | .mk ref type format description enum ex min max minLength maxLength pattern oneOf items required properties _ =>
    { ref, type, format, description, min, max, minLength, maxLength, pattern, required
      enum := valuesBack L enum
      «example» := valueBack L ex
      oneOf := oschemasBack L oneOf
      items := oschemaOptBack L items
      properties := oschemaEntriesBack L properties }
def oschemasBack (L : JLib) : List OSchema → List OSchema
  | [] => []
  | s :: r => oschemaBack L s :: oschemasBack L r
def oschemaOptBack (L : JLib) : Option OSchema → Option OSchema
  | none => none
  | some s => some (oschemaBack L s)
def oschemaEntriesBack (L : JLib) : Option (List (String × OSchema)) → Option (List (String × OSchema))
  | none => none
  | some [] => none
  | some (p :: r) => some (jSort (oschemaPropBack L p :: oschemaPropsBack L r))
def oschemaPropsBack (L : JLib) : List (String × OSchema) → List (String × OSchema)
  | [] => []
  | p :: r => oschemaPropBack L p :: oschemaPropsBack L r
def oschemaPropBack (L : JLib) : String × OSchema → String × OSchema
  | (k, s) => (k, oschemaBack L s)
end

def omediaBack (L : JLib) (c : OMedia) : OMedia :=
  { schema := c.schema.map (oschemaBack L), «example» := valueBack L c.example, examples := entriesBack (valueBack L) c.examples }

def oparamBack (L : JLib) (p : OParam) : OParam :=
  { p with schema := p.schema.map (oschemaBack L), «example» := valueBack L p.example, examples := entriesBack (valueBack L) p.examples }

def oheaderBack (L : JLib) (h : OHeader) : OHeader := { h with schema := h.schema.map (oschemaBack L) }

def oresponseBack (L : JLib) (r : OResponse) : OResponse :=
  { r with headers := entriesBack (oheaderBack L) r.headers, content := entriesBack (omediaBack L) r.content }

def obodyBack (L : JLib) (b : OBody) : OBody := { b with content := entriesBack (omediaBack L) b.content }

def ooperationBack (L : JLib) (o : OOperation) : OOperation :=
  { o with parameters := o.parameters.map (oparamBack L), requestBody := o.requestBody.map (obodyBack L)
           responses := entriesBack (oresponseBack L) o.responses }

def opathBack (L : JLib) (i : OPathItem) : OPathItem :=
  { get := i.get.map (ooperationBack L), put := i.put.map (ooperationBack L), post := i.post.map (ooperationBack L)
    delete := i.delete.map (ooperationBack L), head := i.head.map (ooperationBack L), patch := i.patch.map (ooperationBack L) }

def odocBack (L : JLib) (d : ODoc) : ODoc :=
  { d with paths := entriesBack (opathBack L) d.paths, schemas := entriesBack (oschemaBack L) d.schemas }

/-! ### The documents this holds for -/

/-- A schema of at most `n` levels: no map has a key twice, sizes are 64 bit numbers, and the Go
library prints the limits and the values in it so that they can be read. -/
inductive OSchemaOk (L : JLib) : Nat → OSchema → Prop
  | mk {n s} :
    (∀ v ∈ s.enum.getD [], JLiteralOk L n v) → JLiteralOk L n s.example →
    (∀ f ∈ s.min, PrintsBack L f) → (∀ f ∈ s.max, PrintsBack L f) →
    s.minLength < 2 ^ 64 → (∀ k ∈ s.maxLength, k < 2 ^ 64) →
    ((s.properties.getD []).map Prod.fst).Nodup →
    (∀ t ∈ s.oneOf, OSchemaOk L n t) → (∀ t ∈ s.items, OSchemaOk L n t) →
    (∀ p ∈ s.properties.getD [], OSchemaOk L n p.2) → (∀ t ∈ s.additionalProperties, OSchemaOk L n t) → OSchemaOk L (n + 1) s

/-- The values of the examples of a parameter or a body. -/
def ExamplesOk (L : JLib) (n : Nat) (ex : Value) (examples : GoMap Value) : Prop :=
  JLiteralOk L n ex ∧ (examples.map Prod.fst).Nodup ∧ ∀ p ∈ examples, JLiteralOk L n p.2

def OMediaOk (L : JLib) (n : Nat) (c : OMedia) : Prop := (∀ s ∈ c.schema, OSchemaOk L n s) ∧ ExamplesOk L n c.example c.examples

def OParamOk (L : JLib) (n : Nat) (p : OParam) : Prop := (∀ s ∈ p.schema, OSchemaOk L n s) ∧ ExamplesOk L n p.example p.examples

def OContentOk (L : JLib) (n : Nat) (c : GoMap OMedia) : Prop := (c.map Prod.fst).Nodup ∧ ∀ p ∈ c, OMediaOk L n p.2

structure OResponseOk (L : JLib) (n : Nat) (r : OResponse) : Prop where
  keys : (r.headers.map Prod.fst).Nodup
  headers : ∀ p ∈ r.headers, ∀ s ∈ p.2.schema, OSchemaOk L n s
  content : OContentOk L n r.content

structure OOperationOk (L : JLib) (n : Nat) (o : OOperation) : Prop where
  parameters : ∀ p ∈ o.parameters, OParamOk L n p
  body : ∀ b ∈ o.requestBody, OContentOk L n b.content
  keys : (o.responses.map Prod.fst).Nodup
  responses : ∀ p ∈ o.responses, OResponseOk L n p.2

/-- The document as a whole, whose schemas and values are `n` levels deep. -/
structure ODocOk (L : JLib) (n : Nat) (d : ODoc) : Prop where
  schemaKeys : (d.schemas.map Prod.fst).Nodup
  schemas : ∀ p ∈ d.schemas, OSchemaOk L n p.2
  pathKeys : (d.paths.map Prod.fst).Nodup
  paths : ∀ p ∈ d.paths, ∀ k, ∀ o ∈ p.2.op k, OOperationOk L n o

end Sadl.Spec
