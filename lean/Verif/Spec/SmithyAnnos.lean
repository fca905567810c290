import Verif.Model.SmithyImport
/-
What the annotations say of the traits that they were imported from.
-/
namespace Sadl.Spec
open Sadl Sadl.Smithy

/-- The annotation is the text of the trait. -/
structure AnnoIs (t : Traits) (a : GoMap String) (trait anno : String) : Prop where
  set : ∀ v : String, mget t trait = some (.str v) → v ≠ "" → mget a anno = some v
  unset : mget t trait = none → mget a anno = none

/-- The annotations say what the traits say. -/
structure AnnosAre (t : Traits) (a : GoMap String) : Prop where
  error : AnnoIs t a "smithy.api#error" "x_error"
  format : AnnoIs t a "smithy.api#timestampFormat" "x_timestampFormat"
  enumValue : AnnoIs t a "smithy.api#enumValue" "x_enumValue"
  tag : ∀ l : List String, mget t "smithy.api#tags" = some (.arr (l.map .str)) → joinWith ',' (l.map String.toList) ≠ [] → mget a "x_tags" = some (String.ofList (joinWith ',' (l.map String.toList)))
  deprecated : ∀ v, mget t "smithy.api#deprecated" = some v → mget a "x_deprecated" = some "true"
  notDeprecated : mget t "smithy.api#deprecated" = none → mget a "x_deprecated" = none ∧ mget a "x_deprecated_message" = none ∧ mget a "x_deprecated_since" = none
  message : ∀ d v, mget t "smithy.api#deprecated" = some (.obj d) → mget d "message" = some (.str v) → v ≠ "" → mget a "x_deprecated_message" = some v
  since : ∀ d v, mget t "smithy.api#deprecated" = some (.obj d) → mget d "since" = some (.str v) → v ≠ "" → mget a "x_deprecated_since" = some v
  paginated : ∀ d i o p x, mget t "smithy.api#paginated" = some (.obj d) → mget d "inputToken" = some (.str i) → mget d "outputToken" = some (.str o) →
    mget d "pageSize" = some (.str p) → mget d "items" = some (.str x) →
    mget a "x_paginated" = some ("inputToken=" ++ i ++ ",outputToken=" ++ o ++ ",pageSize=" ++ p ++ ",items=" ++ x)

end Sadl.Spec
