import Verif.Lemmas.GoLex
/-
How the pieces of generated Go text are scanned.  Generated by tools/golits.py from the model.
-/
namespace Sadl.GoLits
open Sadl Sadl.Spec

set_option maxRecDepth 4000

theorem lit1 (s : List Char) : grun (.code, s) "." = some (.code, s) :=
  grun_list (o := []) (o' := []) (t := ".") rfl (by decide +kernel) s
theorem lit2 (s : List Char) : grun (.code, s) "*" = some (.code, s) :=
  grun_list (o := []) (o' := []) (t := "*") rfl (by decide +kernel) s
theorem lit3 (s : List Char) : grun (.code, s) "[]" = some (.code, s) :=
  grun_list (o := []) (o' := []) (t := "[]") rfl (by decide +kernel) s
theorem lit4 (s : List Char) : grun (.code, s) "map[" = some (.code, '[' :: s) :=
  grun_list (o := []) (o' := ['[']) (t := "map[") rfl (by decide +kernel) s
theorem lit5 (s : List Char) : grun (.code, '[' :: s) "]" = some (.code, s) :=
  grun_list (o := ['[']) (o' := []) (t := "]") rfl (by decide +kernel) s
theorem lit6 (s : List Char) : grun (.code, s) "    " = some (.code, s) :=
  grun_list (o := []) (o' := []) (t := "    ") rfl (by decide +kernel) s
theorem lit7 (s : List Char) : grun (.code, s) " " = some (.code, s) :=
  grun_list (o := []) (o' := []) (t := " ") rfl (by decide +kernel) s
theorem lit8 (s : List Char) : grun (.code, s) " `json:\"" = some (.raw, s) :=
  grun_list (o := []) (o' := []) (t := " `json:\"") rfl (by decide +kernel) s
theorem lit9 (s : List Char) : grun (.str, s) " `json:\"" = some (.code, s) :=
  grun_list (o := []) (o' := []) (t := " `json:\"") rfl (by decide +kernel) s
theorem lit10 (s : List Char) : grun (.raw, s) " `json:\"" = some (.str, s) :=
  grun_list (o := []) (o' := []) (t := " `json:\"") rfl (by decide +kernel) s
theorem lit11 (s : List Char) : grun (.code, s) ",omitempty" = some (.code, s) :=
  grun_list (o := []) (o' := []) (t := ",omitempty") rfl (by decide +kernel) s
theorem lit12 (s : List Char) : grun (.raw, s) ",omitempty" = some (.raw, s) :=
  grun_list (o := []) (o' := []) (t := ",omitempty") rfl (by decide +kernel) s
theorem lit13 (s : List Char) : grun (.str, s) "\"`\n" = some (.raw, s) :=
  grun_list (o := []) (o' := []) (t := "\"`\n") rfl (by decide +kernel) s
theorem lit14 (s : List Char) : grun (.raw, s) "\"`\n" = some (.code, s) :=
  grun_list (o := []) (o' := []) (t := "\"`\n") rfl (by decide +kernel) s
theorem lit15 (s : List Char) : grun (.line, s) "\"`\n" = some (.code, s) :=
  grun_list (o := []) (o' := []) (t := "\"`\n") rfl (by decide +kernel) s
theorem lit16 (s : List Char) : grun (.code, s) "(req *" = some (.code, '(' :: s) :=
  grun_list (o := []) (o' := ['(']) (t := "(req *") rfl (by decide +kernel) s
theorem lit17 (s : List Char) : grun (.code, '(' :: s) "Request) (*" = some (.code, '(' :: s) :=
  grun_list (o := ['(']) (o' := ['(']) (t := "Request) (*") rfl (by decide +kernel) s
theorem lit18 (s : List Char) : grun (.code, '(' :: s) "Response, error)" = some (.code, s) :=
  grun_list (o := ['(']) (o' := []) (t := "Response, error)") rfl (by decide +kernel) s
theorem lit19 (s : List Char) : grun (.code, s) "type " = some (.code, s) :=
  grun_list (o := []) (o' := []) (t := "type ") rfl (by decide +kernel) s
theorem lit20 (s : List Char) : grun (.code, s) " int\n\nconst (\n    _ " = some (.code, '(' :: s) :=
  grun_list (o := []) (o' := ['(']) (t := " int\n\nconst (\n    _ ") rfl (by decide +kernel) s
theorem lit21 (s : List Char) : grun (.line, s) " int\n\nconst (\n    _ " = some (.code, '(' :: s) :=
  grun_list (o := []) (o' := ['(']) (t := " int\n\nconst (\n    _ ") rfl (by decide +kernel) s
theorem lit22 (s : List Char) : grun (.code, s) " = iota" = some (.code, s) :=
  grun_list (o := []) (o' := []) (t := " = iota") rfl (by decide +kernel) s
theorem lit23 (s : List Char) : grun (.code, s) "\n    " = some (.code, s) :=
  grun_list (o := []) (o' := []) (t := "\n    ") rfl (by decide +kernel) s
theorem lit24 (s : List Char) : grun (.line, s) "\n    " = some (.code, s) :=
  grun_list (o := []) (o' := []) (t := "\n    ") rfl (by decide +kernel) s
theorem lit25 (s : List Char) : grun (.code, '(' :: s) "\n)\n\nvar names" = some (.code, s) :=
  grun_list (o := ['(']) (o' := []) (t := "\n)\n\nvar names") rfl (by decide +kernel) s
theorem lit26 (s : List Char) : grun (.line, '(' :: s) "\n)\n\nvar names" = some (.code, s) :=
  grun_list (o := ['(']) (o' := []) (t := "\n)\n\nvar names") rfl (by decide +kernel) s
theorem lit27 (s : List Char) : grun (.code, s) " = []string{" = some (.code, '{' :: s) :=
  grun_list (o := []) (o' := ['{']) (t := " = []string{") rfl (by decide +kernel) s
theorem lit28 (s : List Char) : grun (.code, s) ": \"" = some (.str, s) :=
  grun_list (o := []) (o' := []) (t := ": \"") rfl (by decide +kernel) s
theorem lit29 (s : List Char) : grun (.str, s) ": \"" = some (.code, s) :=
  grun_list (o := []) (o' := []) (t := ": \"") rfl (by decide +kernel) s
theorem lit30 (s : List Char) : grun (.code, s) "\"," = some (.str, s) :=
  grun_list (o := []) (o' := []) (t := "\",") rfl (by decide +kernel) s
theorem lit31 (s : List Char) : grun (.str, s) "\"," = some (.code, s) :=
  grun_list (o := []) (o' := []) (t := "\",") rfl (by decide +kernel) s
theorem lit32 (s : List Char) : grun (.code, '{' :: s) "\n}\n\nfunc (e " = some (.code, '(' :: s) :=
  grun_list (o := ['{']) (o' := ['(']) (t := "\n}\n\nfunc (e ") rfl (by decide +kernel) s
theorem lit33 (s : List Char) : grun (.line, '{' :: s) "\n}\n\nfunc (e " = some (.code, '(' :: s) :=
  grun_list (o := ['{']) (o' := ['(']) (t := "\n}\n\nfunc (e ") rfl (by decide +kernel) s
theorem lit34 (s : List Char) : grun (.code, '(' :: s) ") String() string {\n    return names" = some (.code, '{' :: s) :=
  grun_list (o := ['(']) (o' := ['{']) (t := ") String() string {\n    return names") rfl (by decide +kernel) s
theorem lit35 (s : List Char) : grun (.line, s) ") String() string {\n    return names" = some (.code, s) :=
  grun_list (o := []) (o' := []) (t := ") String() string {\n    return names") rfl (by decide +kernel) s
theorem lit36 (s : List Char) : grun (.code, '{' :: s) "[e]\n}\n\nfunc (e " = some (.code, '(' :: s) :=
  grun_list (o := ['{']) (o' := ['(']) (t := "[e]\n}\n\nfunc (e ") rfl (by decide +kernel) s
theorem lit37 (s : List Char) : grun (.line, '{' :: s) "[e]\n}\n\nfunc (e " = some (.code, '(' :: s) :=
  grun_list (o := ['{']) (o' := ['(']) (t := "[e]\n}\n\nfunc (e ") rfl (by decide +kernel) s
theorem lit38 (s : List Char) : grun (.code, '(' :: s) ") MarshalJSON() ([]byte, error) {\n    return json.Marshal(e.String())\n}\n\nfunc (e *" = some (.code, '(' :: s) :=
  grun_list (o := ['(']) (o' := ['(']) (t := ") MarshalJSON() ([]byte, error) {\n    return json.Marshal(e.String())\n}\n\nfunc (e *") rfl (by decide +kernel) s
theorem lit39 (s : List Char) : grun (.line, '{' :: s) ") MarshalJSON() ([]byte, error) {\n    return json.Marshal(e.String())\n}\n\nfunc (e *" = some (.code, '(' :: s) :=
  grun_list (o := ['{']) (o' := ['(']) (t := ") MarshalJSON() ([]byte, error) {\n    return json.Marshal(e.String())\n}\n\nfunc (e *") rfl (by decide +kernel) s
theorem lit40 (s : List Char) : grun (.code, '(' :: s) ") UnmarshalJSON(b []byte) error {\n    var s string\n    err := json.Unmarshal(b, &s)\n    if err == nil {\n        for v, s2 := range names" = some (.code, '{' :: '{' :: s) :=
  grun_list (o := ['(']) (o' := ['{', '{']) (t := ") UnmarshalJSON(b []byte) error {\n    var s string\n    err := json.Unmarshal(b, &s)\n    if err == nil {\n        for v, s2 := range names") rfl (by decide +kernel) s
theorem lit41 (s : List Char) : grun (.line, s) ") UnmarshalJSON(b []byte) error {\n    var s string\n    err := json.Unmarshal(b, &s)\n    if err == nil {\n        for v, s2 := range names" = some (.code, '{' :: s) :=
  grun_list (o := []) (o' := ['{']) (t := ") UnmarshalJSON(b []byte) error {\n    var s string\n    err := json.Unmarshal(b, &s)\n    if err == nil {\n        for v, s2 := range names") rfl (by decide +kernel) s
theorem lit42 (s : List Char) : grun (.code, s) " {\n            if s == s2 {\n                *e = " = some (.code, '{' :: '{' :: s) :=
  grun_list (o := []) (o' := ['{', '{']) (t := " {\n            if s == s2 {\n                *e = ") rfl (by decide +kernel) s
theorem lit43 (s : List Char) : grun (.line, s) " {\n            if s == s2 {\n                *e = " = some (.code, '{' :: s) :=
  grun_list (o := []) (o' := ['{']) (t := " {\n            if s == s2 {\n                *e = ") rfl (by decide +kernel) s
theorem lit44 (s : List Char) : grun (.code, '{' :: '{' :: s) "(v)\n                return nil\n             }\n        }\n        err = fmt.Errorf(\"Bad enum symbol for type " = some (.str, '(' :: s) :=
  grun_list (o := ['{', '{']) (o' := ['(']) (t := "(v)\n                return nil\n             }\n        }\n        err = fmt.Errorf(\"Bad enum symbol for type ") rfl (by decide +kernel) s
theorem lit45 (s : List Char) : grun (.line, '{' :: '{' :: s) "(v)\n                return nil\n             }\n        }\n        err = fmt.Errorf(\"Bad enum symbol for type " = some (.str, '(' :: s) :=
  grun_list (o := ['{', '{']) (o' := ['(']) (t := "(v)\n                return nil\n             }\n        }\n        err = fmt.Errorf(\"Bad enum symbol for type ") rfl (by decide +kernel) s
theorem lit46 (s : List Char) : grun (.str, '(' :: '{' :: '{' :: s) ": %s\", s)\n    }\n    return err\n}\n" = some (.code, s) :=
  grun_list (o := ['(', '{', '{']) (o' := []) (t := ": %s\", s)\n    }\n    return err\n}\n") rfl (by decide +kernel) s
theorem lit47 (s : List Char) : grun (.line, '{' :: '{' :: s) ": %s\", s)\n    }\n    return err\n}\n" = some (.code, s) :=
  grun_list (o := ['{', '{']) (o' := []) (t := ": %s\", s)\n    }\n    return err\n}\n") rfl (by decide +kernel) s
theorem lit48 (s : List Char) : grun (.code, s) "\n//\n// " = some (.line, s) :=
  grun_list (o := []) (o' := []) (t := "\n//\n// ") rfl (by decide +kernel) s
theorem lit49 (s : List Char) : grun (.line, s) "\n//\n// " = some (.line, s) :=
  grun_list (o := []) (o' := []) (t := "\n//\n// ") rfl (by decide +kernel) s
theorem lit50 (s : List Char) : grun (.code, s) "\n//\n" = some (.code, s) :=
  grun_list (o := []) (o' := []) (t := "\n//\n") rfl (by decide +kernel) s
theorem lit51 (s : List Char) : grun (.line, s) "\n//\n" = some (.code, s) :=
  grun_list (o := []) (o' := []) (t := "\n//\n") rfl (by decide +kernel) s
theorem lit52 (s : List Char) : grun (.code, s) " is the interface that the service implementation must conform to\n//\ntype " = some (.code, s) :=
  grun_list (o := []) (o' := []) (t := " is the interface that the service implementation must conform to\n//\ntype ") rfl (by decide +kernel) s
theorem lit53 (s : List Char) : grun (.line, s) " is the interface that the service implementation must conform to\n//\ntype " = some (.code, s) :=
  grun_list (o := []) (o' := []) (t := " is the interface that the service implementation must conform to\n//\ntype ") rfl (by decide +kernel) s
theorem lit54 (s : List Char) : grun (.code, s) " interface {" = some (.code, '{' :: s) :=
  grun_list (o := []) (o' := ['{']) (t := " interface {") rfl (by decide +kernel) s
theorem lit55 (s : List Char) : grun (.code, '{' :: s) "\n}\n\n" = some (.code, s) :=
  grun_list (o := ['{']) (o' := []) (t := "\n}\n\n") rfl (by decide +kernel) s
theorem lit56 (s : List Char) : grun (.line, '{' :: s) "\n}\n\n" = some (.code, s) :=
  grun_list (o := ['{']) (o' := []) (t := "\n}\n\n") rfl (by decide +kernel) s
theorem lit57 (s : List Char) : grun (.code, s) " struct {\n" = some (.code, '{' :: s) :=
  grun_list (o := []) (o' := ['{']) (t := " struct {\n") rfl (by decide +kernel) s
theorem lit58 (s : List Char) : grun (.line, s) " struct {\n" = some (.code, s) :=
  grun_list (o := []) (o' := []) (t := " struct {\n") rfl (by decide +kernel) s
theorem lit59 (s : List Char) : grun (.code, '{' :: s) "}\n\n" = some (.code, s) :=
  grun_list (o := ['{']) (o' := []) (t := "}\n\n") rfl (by decide +kernel) s
theorem lit60 (s : List Char) : grun (.line, s) "}\n\n" = some (.code, s) :=
  grun_list (o := []) (o' := []) (t := "}\n\n") rfl (by decide +kernel) s
theorem lit61 (s : List Char) : grun (.code, s) "func (e *" = some (.code, '(' :: s) :=
  grun_list (o := []) (o' := ['(']) (t := "func (e *") rfl (by decide +kernel) s
theorem lit62 (s : List Char) : grun (.code, '(' :: s) ") Error() string {\n\treturn \"" = some (.str, '{' :: s) :=
  grun_list (o := ['(']) (o' := ['{']) (t := ") Error() string {\n\treturn \"") rfl (by decide +kernel) s
theorem lit63 (s : List Char) : grun (.line, s) ") Error() string {\n\treturn \"" = some (.str, s) :=
  grun_list (o := []) (o' := []) (t := ") Error() string {\n\treturn \"") rfl (by decide +kernel) s
theorem lit64 (s : List Char) : grun (.str, '{' :: s) "\"\n}\n\n" = some (.code, s) :=
  grun_list (o := ['{']) (o' := []) (t := "\"\n}\n\n") rfl (by decide +kernel) s
theorem lit65 (s : List Char) : grun (.line, '{' :: s) "\"\n}\n\n" = some (.code, s) :=
  grun_list (o := ['{']) (o' := []) (t := "\"\n}\n\n") rfl (by decide +kernel) s
theorem lit66 (s : List Char) : grun (.code, s) "VariantTag int\nconst (\n    _ " = some (.code, '(' :: s) :=
  grun_list (o := []) (o' := ['(']) (t := "VariantTag int\nconst (\n    _ ") rfl (by decide +kernel) s
theorem lit67 (s : List Char) : grun (.line, s) "VariantTag int\nconst (\n    _ " = some (.code, '(' :: s) :=
  grun_list (o := []) (o' := ['(']) (t := "VariantTag int\nconst (\n    _ ") rfl (by decide +kernel) s
theorem lit68 (s : List Char) : grun (.code, s) "VariantTag = iota\n" = some (.code, s) :=
  grun_list (o := []) (o' := []) (t := "VariantTag = iota\n") rfl (by decide +kernel) s
theorem lit69 (s : List Char) : grun (.line, s) "VariantTag = iota\n" = some (.code, s) :=
  grun_list (o := []) (o' := []) (t := "VariantTag = iota\n") rfl (by decide +kernel) s
theorem lit70 (s : List Char) : grun (.code, s) "VariantTag" = some (.code, s) :=
  grun_list (o := []) (o' := []) (t := "VariantTag") rfl (by decide +kernel) s
theorem lit71 (s : List Char) : grun (.code, s) "\n" = some (.code, s) :=
  grun_list (o := []) (o' := []) (t := "\n") rfl (by decide +kernel) s
theorem lit72 (s : List Char) : grun (.line, s) "\n" = some (.code, s) :=
  grun_list (o := []) (o' := []) (t := "\n") rfl (by decide +kernel) s
theorem lit73 (s : List Char) : grun (.code, '(' :: s) ")\n\ntype " = some (.code, s) :=
  grun_list (o := ['(']) (o' := []) (t := ")\n\ntype ") rfl (by decide +kernel) s
theorem lit74 (s : List Char) : grun (.line, s) ")\n\ntype " = some (.code, s) :=
  grun_list (o := []) (o' := []) (t := ")\n\ntype ") rfl (by decide +kernel) s
theorem lit75 (s : List Char) : grun (.code, s) " struct {\n    Variant " = some (.code, '{' :: s) :=
  grun_list (o := []) (o' := ['{']) (t := " struct {\n    Variant ") rfl (by decide +kernel) s
theorem lit76 (s : List Char) : grun (.line, s) " struct {\n    Variant " = some (.code, s) :=
  grun_list (o := []) (o' := []) (t := " struct {\n    Variant ") rfl (by decide +kernel) s
theorem lit77 (s : List Char) : grun (.code, s) "VariantTag `json:\"-\"`\n" = some (.code, s) :=
  grun_list (o := []) (o' := []) (t := "VariantTag `json:\"-\"`\n") rfl (by decide +kernel) s
theorem lit78 (s : List Char) : grun (.line, s) "VariantTag `json:\"-\"`\n" = some (.code, s) :=
  grun_list (o := []) (o' := []) (t := "VariantTag `json:\"-\"`\n") rfl (by decide +kernel) s
theorem lit79 (s : List Char) : grun (.code, s) "func " = some (.code, s) :=
  grun_list (o := []) (o' := []) (t := "func ") rfl (by decide +kernel) s
theorem lit80 (s : List Char) : grun (.code, s) "FromString(s string) " = some (.code, s) :=
  grun_list (o := []) (o' := []) (t := "FromString(s string) ") rfl (by decide +kernel) s
theorem lit81 (s : List Char) : grun (.code, s) "{\n\tn, err := strconv.ParseInt(s, 10, 64)\n\tif err != nil {\n\t\treturn 0\n\t}\n\treturn n\n}\n" = some (.code, s) :=
  grun_list (o := []) (o' := []) (t := "{\n\tn, err := strconv.ParseInt(s, 10, 64)\n\tif err != nil {\n\t\treturn 0\n\t}\n\treturn n\n}\n") rfl (by decide +kernel) s
theorem lit82 (s : List Char) : grun (.line, '{' :: s) "{\n\tn, err := strconv.ParseInt(s, 10, 64)\n\tif err != nil {\n\t\treturn 0\n\t}\n\treturn n\n}\n" = some (.code, s) :=
  grun_list (o := ['{']) (o' := []) (t := "{\n\tn, err := strconv.ParseInt(s, 10, 64)\n\tif err != nil {\n\t\treturn 0\n\t}\n\treturn n\n}\n") rfl (by decide +kernel) s
theorem lit83 (s : List Char) : grun (.code, s) "//\n// Generated by sadl\n//\n" = some (.code, s) :=
  grun_list (o := []) (o' := []) (t := "//\n// Generated by sadl\n//\n") rfl (by decide +kernel) s
theorem lit84 (s : List Char) : grun (.line, s) "//\n// Generated by sadl\n//\n" = some (.code, s) :=
  grun_list (o := []) (o' := []) (t := "//\n// Generated by sadl\n//\n") rfl (by decide +kernel) s
theorem lit85 (s : List Char) : grun (.code, s) "package " = some (.code, s) :=
  grun_list (o := []) (o' := []) (t := "package ") rfl (by decide +kernel) s
theorem lit86 (s : List Char) : grun (.code, s) "\nimport(\n" = some (.code, '(' :: s) :=
  grun_list (o := []) (o' := ['(']) (t := "\nimport(\n") rfl (by decide +kernel) s
theorem lit87 (s : List Char) : grun (.line, s) "\nimport(\n" = some (.code, '(' :: s) :=
  grun_list (o := []) (o' := ['(']) (t := "\nimport(\n") rfl (by decide +kernel) s
theorem lit88 (s : List Char) : grun (.code, s) "\t\"" = some (.str, s) :=
  grun_list (o := []) (o' := []) (t := "\t\"") rfl (by decide +kernel) s
theorem lit89 (s : List Char) : grun (.str, s) "\t\"" = some (.code, s) :=
  grun_list (o := []) (o' := []) (t := "\t\"") rfl (by decide +kernel) s
theorem lit90 (s : List Char) : grun (.str, s) "\"\n" = some (.code, s) :=
  grun_list (o := []) (o' := []) (t := "\"\n") rfl (by decide +kernel) s
theorem lit91 (s : List Char) : grun (.line, s) "\"\n" = some (.code, s) :=
  grun_list (o := []) (o' := []) (t := "\"\n") rfl (by decide +kernel) s
theorem lit92 (s : List Char) : grun (.code, '(' :: s) ")\n" = some (.code, s) :=
  grun_list (o := ['(']) (o' := []) (t := ")\n") rfl (by decide +kernel) s
theorem lit93 (s : List Char) : grun (.line, s) ")\n" = some (.code, s) :=
  grun_list (o := []) (o' := []) (t := ")\n") rfl (by decide +kernel) s
theorem lit94 (s : List Char) : grun (.code, s) "r.Form.Get(\"" = some (.str, '(' :: s) :=
  grun_list (o := []) (o' := ['(']) (t := "r.Form.Get(\"") rfl (by decide +kernel) s
theorem lit95 (s : List Char) : grun (.str, s) "r.Form.Get(\"" = some (.code, s) :=
  grun_list (o := []) (o' := []) (t := "r.Form.Get(\"") rfl (by decide +kernel) s
theorem lit96 (s : List Char) : grun (.code, s) "\")" = some (.str, s) :=
  grun_list (o := []) (o' := []) (t := "\")") rfl (by decide +kernel) s
theorem lit97 (s : List Char) : grun (.str, '(' :: s) "\")" = some (.code, s) :=
  grun_list (o := ['(']) (o' := []) (t := "\")") rfl (by decide +kernel) s
theorem lit98 (s : List Char) : grun (.code, s) "r.Header.Get(\"" = some (.str, '(' :: s) :=
  grun_list (o := []) (o' := ['(']) (t := "r.Header.Get(\"") rfl (by decide +kernel) s
theorem lit99 (s : List Char) : grun (.str, s) "r.Header.Get(\"" = some (.code, s) :=
  grun_list (o := []) (o' := []) (t := "r.Header.Get(\"") rfl (by decide +kernel) s
theorem lit100 (s : List Char) : grun (.code, s) "mux.Vars(r)[\"" = some (.str, '[' :: s) :=
  grun_list (o := []) (o' := ['[']) (t := "mux.Vars(r)[\"") rfl (by decide +kernel) s
theorem lit101 (s : List Char) : grun (.str, s) "mux.Vars(r)[\"" = some (.code, s) :=
  grun_list (o := []) (o' := []) (t := "mux.Vars(r)[\"") rfl (by decide +kernel) s
theorem lit102 (s : List Char) : grun (.code, s) "\"]" = some (.str, s) :=
  grun_list (o := []) (o' := []) (t := "\"]") rfl (by decide +kernel) s
theorem lit103 (s : List Char) : grun (.str, '[' :: s) "\"]" = some (.code, s) :=
  grun_list (o := ['[']) (o' := []) (t := "\"]") rfl (by decide +kernel) s
theorem lit104 (s : List Char) : grun (.code, s) "stringParam(" = some (.code, '(' :: s) :=
  grun_list (o := []) (o' := ['(']) (t := "stringParam(") rfl (by decide +kernel) s
theorem lit105 (s : List Char) : grun (.code, s) ", \"" = some (.str, s) :=
  grun_list (o := []) (o' := []) (t := ", \"") rfl (by decide +kernel) s
theorem lit106 (s : List Char) : grun (.str, s) ", \"" = some (.code, s) :=
  grun_list (o := []) (o' := []) (t := ", \"") rfl (by decide +kernel) s
theorem lit107 (s : List Char) : grun (.code, s) "timestampParam(" = some (.code, '(' :: s) :=
  grun_list (o := []) (o' := ['(']) (t := "timestampParam(") rfl (by decide +kernel) s
theorem lit108 (s : List Char) : grun (.code, '(' :: s) ", nil)" = some (.code, s) :=
  grun_list (o := ['(']) (o' := []) (t := ", nil)") rfl (by decide +kernel) s
theorem lit109 (s : List Char) : grun (.code, s) "intParam(" = some (.code, '(' :: s) :=
  grun_list (o := []) (o' := ['(']) (t := "intParam(") rfl (by decide +kernel) s
theorem lit110 (s : List Char) : grun (.code, s) ", " = some (.code, s) :=
  grun_list (o := []) (o' := []) (t := ", ") rfl (by decide +kernel) s
theorem lit111 (s : List Char) : grun (.code, '(' :: s) ")" = some (.code, s) :=
  grun_list (o := ['(']) (o' := []) (t := ")") rfl (by decide +kernel) s
theorem lit112 (s : List Char) : grun (.code, s) "(" = some (.code, '(' :: s) :=
  grun_list (o := []) (o' := ['(']) (t := "(") rfl (by decide +kernel) s
theorem lit113 (s : List Char) : grun (.code, s) "\tif err != nil {\n\t\terrorResponse(w, 400, fmt.Sprint(err))\n\t\treturn\n\t}\n" = some (.code, s) :=
  grun_list (o := []) (o' := []) (t := "\tif err != nil {\n\t\terrorResponse(w, 400, fmt.Sprint(err))\n\t\treturn\n\t}\n") rfl (by decide +kernel) s
theorem lit114 (s : List Char) : grun (.line, '{' :: s) "\tif err != nil {\n\t\terrorResponse(w, 400, fmt.Sprint(err))\n\t\treturn\n\t}\n" = some (.code, s) :=
  grun_list (o := ['{']) (o' := []) (t := "\tif err != nil {\n\t\terrorResponse(w, 400, fmt.Sprint(err))\n\t\treturn\n\t}\n") rfl (by decide +kernel) s
theorem lit115 (s : List Char) : grun (.code, s) "\treq." = some (.code, s) :=
  grun_list (o := []) (o' := []) (t := "\treq.") rfl (by decide +kernel) s
theorem lit116 (s : List Char) : grun (.code, s) " = " = some (.code, s) :=
  grun_list (o := []) (o' := []) (t := " = ") rfl (by decide +kernel) s
theorem lit117 (s : List Char) : grun (.code, s) "\terr := json.NewDecoder(r.Body).Decode(&req." = some (.code, '(' :: s) :=
  grun_list (o := []) (o' := ['(']) (t := "\terr := json.NewDecoder(r.Body).Decode(&req.") rfl (by decide +kernel) s
theorem lit118 (s : List Char) : grun (.code, s) "\nfunc (handler *" = some (.code, '(' :: s) :=
  grun_list (o := []) (o' := ['(']) (t := "\nfunc (handler *") rfl (by decide +kernel) s
theorem lit119 (s : List Char) : grun (.line, s) "\nfunc (handler *" = some (.code, '(' :: s) :=
  grun_list (o := []) (o' := ['(']) (t := "\nfunc (handler *") rfl (by decide +kernel) s
theorem lit120 (s : List Char) : grun (.code, '(' :: s) ") " = some (.code, s) :=
  grun_list (o := ['(']) (o' := []) (t := ") ") rfl (by decide +kernel) s
theorem lit121 (s : List Char) : grun (.code, s) "Handler(w http.ResponseWriter, r *http.Request) {\n" = some (.code, '{' :: s) :=
  grun_list (o := []) (o' := ['{']) (t := "Handler(w http.ResponseWriter, r *http.Request) {\n") rfl (by decide +kernel) s
theorem lit122 (s : List Char) : grun (.line, s) "Handler(w http.ResponseWriter, r *http.Request) {\n" = some (.code, s) :=
  grun_list (o := []) (o' := []) (t := "Handler(w http.ResponseWriter, r *http.Request) {\n") rfl (by decide +kernel) s
theorem lit123 (s : List Char) : grun (.code, s) "\treq := new(" = some (.code, '(' :: s) :=
  grun_list (o := []) (o' := ['(']) (t := "\treq := new(") rfl (by decide +kernel) s
theorem lit124 (s : List Char) : grun (.code, '(' :: s) "Request)\n" = some (.code, s) :=
  grun_list (o := ['(']) (o' := []) (t := "Request)\n") rfl (by decide +kernel) s
theorem lit125 (s : List Char) : grun (.line, s) "Request)\n" = some (.code, s) :=
  grun_list (o := []) (o' := []) (t := "Request)\n") rfl (by decide +kernel) s
theorem lit126 (s : List Char) : grun (.code, s) "\terr := r.ParseForm()\n" = some (.code, s) :=
  grun_list (o := []) (o' := []) (t := "\terr := r.ParseForm()\n") rfl (by decide +kernel) s
theorem lit127 (s : List Char) : grun (.line, s) "\terr := r.ParseForm()\n" = some (.code, s) :=
  grun_list (o := []) (o' := []) (t := "\terr := r.ParseForm()\n") rfl (by decide +kernel) s
theorem lit128 (s : List Char) : grun (.code, s) "\t" = some (.code, s) :=
  grun_list (o := []) (o' := []) (t := "\t") rfl (by decide +kernel) s
theorem lit129 (s : List Char) : grun (.code, s) ", err := handler.impl." = some (.code, s) :=
  grun_list (o := []) (o' := []) (t := ", err := handler.impl.") rfl (by decide +kernel) s
theorem lit130 (s : List Char) : grun (.code, s) "(req)\n" = some (.code, s) :=
  grun_list (o := []) (o' := []) (t := "(req)\n") rfl (by decide +kernel) s
theorem lit131 (s : List Char) : grun (.line, s) "(req)\n" = some (.code, s) :=
  grun_list (o := []) (o' := []) (t := "(req)\n") rfl (by decide +kernel) s
theorem lit132 (s : List Char) : grun (.code, s) "\tif err != nil {\n" = some (.code, '{' :: s) :=
  grun_list (o := []) (o' := ['{']) (t := "\tif err != nil {\n") rfl (by decide +kernel) s
theorem lit133 (s : List Char) : grun (.line, s) "\tif err != nil {\n" = some (.code, s) :=
  grun_list (o := []) (o' := []) (t := "\tif err != nil {\n") rfl (by decide +kernel) s
theorem lit134 (s : List Char) : grun (.code, s) "\t\tswitch err.(type) {\n" = some (.code, '{' :: s) :=
  grun_list (o := []) (o' := ['{']) (t := "\t\tswitch err.(type) {\n") rfl (by decide +kernel) s
theorem lit135 (s : List Char) : grun (.line, s) "\t\tswitch err.(type) {\n" = some (.code, s) :=
  grun_list (o := []) (o' := []) (t := "\t\tswitch err.(type) {\n") rfl (by decide +kernel) s
theorem lit136 (s : List Char) : grun (.code, s) "\t\tcase " = some (.code, s) :=
  grun_list (o := []) (o' := []) (t := "\t\tcase ") rfl (by decide +kernel) s
theorem lit137 (s : List Char) : grun (.code, s) ":\n\t\t\tjsonResponse(w, " = some (.code, '(' :: s) :=
  grun_list (o := []) (o' := ['(']) (t := ":\n\t\t\tjsonResponse(w, ") rfl (by decide +kernel) s
theorem lit138 (s : List Char) : grun (.line, s) ":\n\t\t\tjsonResponse(w, " = some (.code, '(' :: s) :=
  grun_list (o := []) (o' := ['(']) (t := ":\n\t\t\tjsonResponse(w, ") rfl (by decide +kernel) s
theorem lit139 (s : List Char) : grun (.code, '(' :: s) ", err)\n" = some (.code, s) :=
  grun_list (o := ['(']) (o' := []) (t := ", err)\n") rfl (by decide +kernel) s
theorem lit140 (s : List Char) : grun (.line, s) ", err)\n" = some (.code, s) :=
  grun_list (o := []) (o' := []) (t := ", err)\n") rfl (by decide +kernel) s
theorem lit141 (s : List Char) : grun (.code, s) "\t\tdefault:\n" = some (.code, s) :=
  grun_list (o := []) (o' := []) (t := "\t\tdefault:\n") rfl (by decide +kernel) s
theorem lit142 (s : List Char) : grun (.line, s) "\t\tdefault:\n" = some (.code, s) :=
  grun_list (o := []) (o' := []) (t := "\t\tdefault:\n") rfl (by decide +kernel) s
theorem lit143 (s : List Char) : grun (.code, s) "\t\t\tjsonResponse(w, 500, &serverError{Message: fmt.Sprint(err)})\n" = some (.code, s) :=
  grun_list (o := []) (o' := []) (t := "\t\t\tjsonResponse(w, 500, &serverError{Message: fmt.Sprint(err)})\n") rfl (by decide +kernel) s
theorem lit144 (s : List Char) : grun (.line, s) "\t\t\tjsonResponse(w, 500, &serverError{Message: fmt.Sprint(err)})\n" = some (.code, s) :=
  grun_list (o := []) (o' := []) (t := "\t\t\tjsonResponse(w, 500, &serverError{Message: fmt.Sprint(err)})\n") rfl (by decide +kernel) s
theorem lit145 (s : List Char) : grun (.code, '{' :: s) "\t\t}\n" = some (.code, s) :=
  grun_list (o := ['{']) (o' := []) (t := "\t\t}\n") rfl (by decide +kernel) s
theorem lit146 (s : List Char) : grun (.line, s) "\t\t}\n" = some (.code, s) :=
  grun_list (o := []) (o' := []) (t := "\t\t}\n") rfl (by decide +kernel) s
theorem lit147 (s : List Char) : grun (.code, '{' :: s) "\t} else {\n" = some (.code, '{' :: s) :=
  grun_list (o := ['{']) (o' := ['{']) (t := "\t} else {\n") rfl (by decide +kernel) s
theorem lit148 (s : List Char) : grun (.line, s) "\t} else {\n" = some (.code, s) :=
  grun_list (o := []) (o' := []) (t := "\t} else {\n") rfl (by decide +kernel) s
theorem lit149 (s : List Char) : grun (.code, s) "\t\tw.Header().Add(\"" = some (.str, '(' :: s) :=
  grun_list (o := []) (o' := ['(']) (t := "\t\tw.Header().Add(\"") rfl (by decide +kernel) s
theorem lit150 (s : List Char) : grun (.str, s) "\t\tw.Header().Add(\"" = some (.code, s) :=
  grun_list (o := []) (o' := []) (t := "\t\tw.Header().Add(\"") rfl (by decide +kernel) s
theorem lit151 (s : List Char) : grun (.code, s) "\", normalizeHeaderValue(\"" = some (.code, s) :=
  grun_list (o := []) (o' := []) (t := "\", normalizeHeaderValue(\"") rfl (by decide +kernel) s
theorem lit152 (s : List Char) : grun (.str, s) "\", normalizeHeaderValue(\"" = some (.str, '(' :: s) :=
  grun_list (o := []) (o' := ['(']) (t := "\", normalizeHeaderValue(\"") rfl (by decide +kernel) s
theorem lit153 (s : List Char) : grun (.code, s) "\", res." = some (.str, s) :=
  grun_list (o := []) (o' := []) (t := "\", res.") rfl (by decide +kernel) s
theorem lit154 (s : List Char) : grun (.str, s) "\", res." = some (.code, s) :=
  grun_list (o := []) (o' := []) (t := "\", res.") rfl (by decide +kernel) s
theorem lit155 (s : List Char) : grun (.code, '(' :: '(' :: s) "))\n" = some (.code, s) :=
  grun_list (o := ['(', '(']) (o' := []) (t := "))\n") rfl (by decide +kernel) s
theorem lit156 (s : List Char) : grun (.line, s) "))\n" = some (.code, s) :=
  grun_list (o := []) (o' := []) (t := "))\n") rfl (by decide +kernel) s
theorem lit157 (s : List Char) : grun (.code, s) "\t\tjsonResponse(w, " = some (.code, '(' :: s) :=
  grun_list (o := []) (o' := ['(']) (t := "\t\tjsonResponse(w, ") rfl (by decide +kernel) s
theorem lit158 (s : List Char) : grun (.code, s) "res." = some (.code, s) :=
  grun_list (o := []) (o' := []) (t := "res.") rfl (by decide +kernel) s
theorem lit159 (s : List Char) : grun (.code, s) "nil" = some (.code, s) :=
  grun_list (o := []) (o' := []) (t := "nil") rfl (by decide +kernel) s
theorem lit160 (s : List Char) : grun (.code, '{' :: s) "\t}\n" = some (.code, s) :=
  grun_list (o := ['{']) (o' := []) (t := "\t}\n") rfl (by decide +kernel) s
theorem lit161 (s : List Char) : grun (.line, s) "\t}\n" = some (.code, s) :=
  grun_list (o := []) (o' := []) (t := "\t}\n") rfl (by decide +kernel) s
theorem lit162 (s : List Char) : grun (.code, '{' :: s) "}\n" = some (.code, s) :=
  grun_list (o := ['{']) (o' := []) (t := "}\n") rfl (by decide +kernel) s
theorem lit163 (s : List Char) : grun (.line, s) "}\n" = some (.code, s) :=
  grun_list (o := []) (o' := []) (t := "}\n") rfl (by decide +kernel) s
theorem lit164 (s : List Char) : grun (.code, s) "\n\tr.HandleFunc(b+\"" = some (.str, '(' :: s) :=
  grun_list (o := []) (o' := ['(']) (t := "\n\tr.HandleFunc(b+\"") rfl (by decide +kernel) s
theorem lit165 (s : List Char) : grun (.line, s) "\n\tr.HandleFunc(b+\"" = some (.str, '(' :: s) :=
  grun_list (o := []) (o' := ['(']) (t := "\n\tr.HandleFunc(b+\"") rfl (by decide +kernel) s
theorem lit166 (s : List Char) : grun (.str, s) "\", func (w http.ResponseWriter, r *http.Request) {\n" = some (.code, '{' :: s) :=
  grun_list (o := []) (o' := ['{']) (t := "\", func (w http.ResponseWriter, r *http.Request) {\n") rfl (by decide +kernel) s
theorem lit167 (s : List Char) : grun (.line, s) "\", func (w http.ResponseWriter, r *http.Request) {\n" = some (.code, s) :=
  grun_list (o := []) (o' := []) (t := "\", func (w http.ResponseWriter, r *http.Request) {\n") rfl (by decide +kernel) s
theorem lit168 (s : List Char) : grun (.code, s) "      adaptor." = some (.code, s) :=
  grun_list (o := []) (o' := []) (t := "      adaptor.") rfl (by decide +kernel) s
theorem lit169 (s : List Char) : grun (.code, s) "Handler(w, r)\n" = some (.code, s) :=
  grun_list (o := []) (o' := []) (t := "Handler(w, r)\n") rfl (by decide +kernel) s
theorem lit170 (s : List Char) : grun (.line, s) "Handler(w, r)\n" = some (.code, s) :=
  grun_list (o := []) (o' := []) (t := "Handler(w, r)\n") rfl (by decide +kernel) s
theorem lit171 (s : List Char) : grun (.code, '{' :: '(' :: s) "\t}).Methods(\"" = some (.str, '(' :: s) :=
  grun_list (o := ['{', '(']) (o' := ['(']) (t := "\t}).Methods(\"") rfl (by decide +kernel) s
theorem lit172 (s : List Char) : grun (.str, s) "\t}).Methods(\"" = some (.code, s) :=
  grun_list (o := []) (o' := []) (t := "\t}).Methods(\"") rfl (by decide +kernel) s
theorem lit173 (s : List Char) : grun (.code, s) "\ntype " = some (.code, s) :=
  grun_list (o := []) (o' := []) (t := "\ntype ") rfl (by decide +kernel) s
theorem lit174 (s : List Char) : grun (.line, s) "\ntype " = some (.code, s) :=
  grun_list (o := []) (o' := []) (t := "\ntype ") rfl (by decide +kernel) s
theorem lit175 (s : List Char) : grun (.code, s) " struct {\n\timpl " = some (.code, '{' :: s) :=
  grun_list (o := []) (o' := ['{']) (t := " struct {\n\timpl ") rfl (by decide +kernel) s
theorem lit176 (s : List Char) : grun (.line, s) " struct {\n\timpl " = some (.code, s) :=
  grun_list (o := []) (o' := []) (t := " struct {\n\timpl ") rfl (by decide +kernel) s
theorem lit177 (s : List Char) : grun (.code, s) "\n\nfunc InitServer(impl " = some (.code, '(' :: s) :=
  grun_list (o := []) (o' := ['(']) (t := "\n\nfunc InitServer(impl ") rfl (by decide +kernel) s
theorem lit178 (s : List Char) : grun (.line, s) "\n\nfunc InitServer(impl " = some (.code, '(' :: s) :=
  grun_list (o := []) (o' := ['(']) (t := "\n\nfunc InitServer(impl ") rfl (by decide +kernel) s
theorem lit179 (s : List Char) : grun (.code, '(' :: s) ", baseURL string) http.Handler {\n" = some (.code, '{' :: s) :=
  grun_list (o := ['(']) (o' := ['{']) (t := ", baseURL string) http.Handler {\n") rfl (by decide +kernel) s
theorem lit180 (s : List Char) : grun (.line, s) ", baseURL string) http.Handler {\n" = some (.code, s) :=
  grun_list (o := []) (o' := []) (t := ", baseURL string) http.Handler {\n") rfl (by decide +kernel) s
theorem lit181 (s : List Char) : grun (.code, s) "\tadaptor := &" = some (.code, s) :=
  grun_list (o := []) (o' := []) (t := "\tadaptor := &") rfl (by decide +kernel) s
theorem lit182 (s : List Char) : grun (.code, s) "{\n\t\timpl: impl,\n\t}\n" = some (.code, s) :=
  grun_list (o := []) (o' := []) (t := "{\n\t\timpl: impl,\n\t}\n") rfl (by decide +kernel) s
theorem lit183 (s : List Char) : grun (.line, '{' :: s) "{\n\t\timpl: impl,\n\t}\n" = some (.code, s) :=
  grun_list (o := ['{']) (o' := []) (t := "{\n\t\timpl: impl,\n\t}\n") rfl (by decide +kernel) s
theorem lit184 (s : List Char) : grun (.code, s) "   u, err := url.Parse(strings.TrimSuffix(baseURL, \"/\"))\n" = some (.code, s) :=
  grun_list (o := []) (o' := []) (t := "   u, err := url.Parse(strings.TrimSuffix(baseURL, \"/\"))\n") rfl (by decide +kernel) s
theorem lit185 (s : List Char) : grun (.line, s) "   u, err := url.Parse(strings.TrimSuffix(baseURL, \"/\"))\n" = some (.code, s) :=
  grun_list (o := []) (o' := []) (t := "   u, err := url.Parse(strings.TrimSuffix(baseURL, \"/\"))\n") rfl (by decide +kernel) s
theorem lit186 (s : List Char) : grun (.code, s) "   if err != nil {\n      log.Fatal(err)\n   }\t\n" = some (.code, s) :=
  grun_list (o := []) (o' := []) (t := "   if err != nil {\n      log.Fatal(err)\n   }\t\n") rfl (by decide +kernel) s
theorem lit187 (s : List Char) : grun (.line, '{' :: s) "   if err != nil {\n      log.Fatal(err)\n   }\t\n" = some (.code, s) :=
  grun_list (o := ['{']) (o' := []) (t := "   if err != nil {\n      log.Fatal(err)\n   }\t\n") rfl (by decide +kernel) s
theorem lit188 (s : List Char) : grun (.code, s) "   b := u.Path\n\tr := mux.NewRouter()\n" = some (.code, s) :=
  grun_list (o := []) (o' := []) (t := "   b := u.Path\n\tr := mux.NewRouter()\n") rfl (by decide +kernel) s
theorem lit189 (s : List Char) : grun (.line, s) "   b := u.Path\n\tr := mux.NewRouter()\n" = some (.code, s) :=
  grun_list (o := []) (o' := []) (t := "   b := u.Path\n\tr := mux.NewRouter()\n") rfl (by decide +kernel) s
theorem lit190 (s : List Char) : grun (.code, s) "\n\tr.NotFoundHandler = http.HandlerFunc(func(w http.ResponseWriter, r *http.Request) {\n" = some (.code, '{' :: '(' :: s) :=
  grun_list (o := []) (o' := ['{', '(']) (t := "\n\tr.NotFoundHandler = http.HandlerFunc(func(w http.ResponseWriter, r *http.Request) {\n") rfl (by decide +kernel) s
theorem lit191 (s : List Char) : grun (.line, s) "\n\tr.NotFoundHandler = http.HandlerFunc(func(w http.ResponseWriter, r *http.Request) {\n" = some (.code, '{' :: '(' :: s) :=
  grun_list (o := []) (o' := ['{', '(']) (t := "\n\tr.NotFoundHandler = http.HandlerFunc(func(w http.ResponseWriter, r *http.Request) {\n") rfl (by decide +kernel) s
theorem lit192 (s : List Char) : grun (.code, s) "\t\tjsonResponse(w, 404, &serverError{Message: fmt.Sprintf(\"Not Found: %s\", r.URL.Path)})\n" = some (.code, s) :=
  grun_list (o := []) (o' := []) (t := "\t\tjsonResponse(w, 404, &serverError{Message: fmt.Sprintf(\"Not Found: %s\", r.URL.Path)})\n") rfl (by decide +kernel) s
theorem lit193 (s : List Char) : grun (.line, s) "\t\tjsonResponse(w, 404, &serverError{Message: fmt.Sprintf(\"Not Found: %s\", r.URL.Path)})\n" = some (.code, s) :=
  grun_list (o := []) (o' := []) (t := "\t\tjsonResponse(w, 404, &serverError{Message: fmt.Sprintf(\"Not Found: %s\", r.URL.Path)})\n") rfl (by decide +kernel) s
theorem lit194 (s : List Char) : grun (.code, '{' :: '(' :: '{' :: s) "\t})\n\treturn r\n}\n\n" = some (.code, s) :=
  grun_list (o := ['{', '(', '{']) (o' := []) (t := "\t})\n\treturn r\n}\n\n") rfl (by decide +kernel) s
theorem lit195 (s : List Char) : grun (.line, '{' :: s) "\t})\n\treturn r\n}\n\n" = some (.code, s) :=
  grun_list (o := ['{']) (o' := []) (t := "\t})\n\treturn r\n}\n\n") rfl (by decide +kernel) s
theorem lit196 (s : List Char) : grun (.code, s) "\tif req." = some (.code, s) :=
  grun_list (o := []) (o' := []) (t := "\tif req.") rfl (by decide +kernel) s
theorem lit197 (s : List Char) : grun (.code, s) " != " = some (.code, s) :=
  grun_list (o := []) (o' := []) (t := " != ") rfl (by decide +kernel) s
theorem lit198 (s : List Char) : grun (.code, s) " {\n" = some (.code, '{' :: s) :=
  grun_list (o := []) (o' := ['{']) (t := " {\n") rfl (by decide +kernel) s
theorem lit199 (s : List Char) : grun (.line, s) " {\n" = some (.code, s) :=
  grun_list (o := []) (o' := []) (t := " {\n") rfl (by decide +kernel) s
theorem lit200 (s : List Char) : grun (.code, s) "\t\targs = append(args, fmt.Sprintf(\"" = some (.str, '(' :: '(' :: s) :=
  grun_list (o := []) (o' := ['(', '(']) (t := "\t\targs = append(args, fmt.Sprintf(\"") rfl (by decide +kernel) s
theorem lit201 (s : List Char) : grun (.str, s) "\t\targs = append(args, fmt.Sprintf(\"" = some (.code, s) :=
  grun_list (o := []) (o' := []) (t := "\t\targs = append(args, fmt.Sprintf(\"") rfl (by decide +kernel) s
theorem lit202 (s : List Char) : grun (.code, s) "=" = some (.code, s) :=
  grun_list (o := []) (o' := []) (t := "=") rfl (by decide +kernel) s
theorem lit203 (s : List Char) : grun (.str, s) "=" = some (.str, s) :=
  grun_list (o := []) (o' := []) (t := "=") rfl (by decide +kernel) s
theorem lit204 (s : List Char) : grun (.code, s) "\", req." = some (.str, s) :=
  grun_list (o := []) (o' := []) (t := "\", req.") rfl (by decide +kernel) s
theorem lit205 (s : List Char) : grun (.str, s) "\", req." = some (.code, s) :=
  grun_list (o := []) (o' := []) (t := "\", req.") rfl (by decide +kernel) s
theorem lit206 (s : List Char) : grun (.code, s) "\t\tvar entity " = some (.code, s) :=
  grun_list (o := []) (o' := []) (t := "\t\tvar entity ") rfl (by decide +kernel) s
theorem lit207 (s : List Char) : grun (.code, s) "\t\terr = json.NewDecoder(res.Body).Decode(&entity)\n" = some (.code, s) :=
  grun_list (o := []) (o' := []) (t := "\t\terr = json.NewDecoder(res.Body).Decode(&entity)\n") rfl (by decide +kernel) s
theorem lit208 (s : List Char) : grun (.line, s) "\t\terr = json.NewDecoder(res.Body).Decode(&entity)\n" = some (.code, s) :=
  grun_list (o := []) (o' := []) (t := "\t\terr = json.NewDecoder(res.Body).Decode(&entity)\n") rfl (by decide +kernel) s
theorem lit209 (s : List Char) : grun (.code, s) "\t\tif err != nil {\n\t\t\treturn nil, err\n\t\t}\n" = some (.code, s) :=
  grun_list (o := []) (o' := []) (t := "\t\tif err != nil {\n\t\t\treturn nil, err\n\t\t}\n") rfl (by decide +kernel) s
theorem lit210 (s : List Char) : grun (.line, '{' :: s) "\t\tif err != nil {\n\t\t\treturn nil, err\n\t\t}\n" = some (.code, s) :=
  grun_list (o := ['{']) (o' := []) (t := "\t\tif err != nil {\n\t\t\treturn nil, err\n\t\t}\n") rfl (by decide +kernel) s
theorem lit211 (s : List Char) : grun (.code, s) "\t\tresponse." = some (.code, s) :=
  grun_list (o := []) (o' := []) (t := "\t\tresponse.") rfl (by decide +kernel) s
theorem lit212 (s : List Char) : grun (.code, s) " = entity\n" = some (.code, s) :=
  grun_list (o := []) (o' := []) (t := " = entity\n") rfl (by decide +kernel) s
theorem lit213 (s : List Char) : grun (.line, s) " = entity\n" = some (.code, s) :=
  grun_list (o := []) (o' := []) (t := " = entity\n") rfl (by decide +kernel) s
theorem lit214 (s : List Char) : grun (.code, s) "res.Header.Get(\"" = some (.str, '(' :: s) :=
  grun_list (o := []) (o' := ['(']) (t := "res.Header.Get(\"") rfl (by decide +kernel) s
theorem lit215 (s : List Char) : grun (.str, s) "res.Header.Get(\"" = some (.code, s) :=
  grun_list (o := []) (o' := []) (t := "res.Header.Get(\"") rfl (by decide +kernel) s
theorem lit216 (s : List Char) : grun (.code, s) "TimestampFromString(" = some (.code, '(' :: s) :=
  grun_list (o := []) (o' := ['(']) (t := "TimestampFromString(") rfl (by decide +kernel) s
theorem lit217 (s : List Char) : grun (.code, s) "\nfunc (client *" = some (.code, '(' :: s) :=
  grun_list (o := []) (o' := ['(']) (t := "\nfunc (client *") rfl (by decide +kernel) s
theorem lit218 (s : List Char) : grun (.line, s) "\nfunc (client *" = some (.code, '(' :: s) :=
  grun_list (o := []) (o' := ['(']) (t := "\nfunc (client *") rfl (by decide +kernel) s
theorem lit219 (s : List Char) : grun (.code, '(' :: s) "Response, error) {\n" = some (.code, '{' :: s) :=
  grun_list (o := ['(']) (o' := ['{']) (t := "Response, error) {\n") rfl (by decide +kernel) s
theorem lit220 (s : List Char) : grun (.line, s) "Response, error) {\n" = some (.code, s) :=
  grun_list (o := []) (o' := []) (t := "Response, error) {\n") rfl (by decide +kernel) s
theorem lit221 (s : List Char) : grun (.code, s) "\turl := client.Target + \"" = some (.str, s) :=
  grun_list (o := []) (o' := []) (t := "\turl := client.Target + \"") rfl (by decide +kernel) s
theorem lit222 (s : List Char) : grun (.str, s) "\turl := client.Target + \"" = some (.code, s) :=
  grun_list (o := []) (o' := []) (t := "\turl := client.Target + \"") rfl (by decide +kernel) s
theorem lit223 (s : List Char) : grun (.code, s) "\tvar args []string\n" = some (.code, s) :=
  grun_list (o := []) (o' := []) (t := "\tvar args []string\n") rfl (by decide +kernel) s
theorem lit224 (s : List Char) : grun (.line, s) "\tvar args []string\n" = some (.code, s) :=
  grun_list (o := []) (o' := []) (t := "\tvar args []string\n") rfl (by decide +kernel) s
theorem lit225 (s : List Char) : grun (.code, s) "\tif len(args) > 0 {\n\t\turl = url + \"?\" + strings.Join(args, \"&\")\n\t}\n" = some (.code, s) :=
  grun_list (o := []) (o' := []) (t := "\tif len(args) > 0 {\n\t\turl = url + \"?\" + strings.Join(args, \"&\")\n\t}\n") rfl (by decide +kernel) s
theorem lit226 (s : List Char) : grun (.line, '{' :: s) "\tif len(args) > 0 {\n\t\turl = url + \"?\" + strings.Join(args, \"&\")\n\t}\n" = some (.code, s) :=
  grun_list (o := ['{']) (o' := []) (t := "\tif len(args) > 0 {\n\t\turl = url + \"?\" + strings.Join(args, \"&\")\n\t}\n") rfl (by decide +kernel) s
theorem lit227 (s : List Char) : grun (.code, s) "\threq, err := http.NewRequest(\"" = some (.str, '(' :: s) :=
  grun_list (o := []) (o' := ['(']) (t := "\threq, err := http.NewRequest(\"") rfl (by decide +kernel) s
theorem lit228 (s : List Char) : grun (.str, s) "\threq, err := http.NewRequest(\"" = some (.code, s) :=
  grun_list (o := []) (o' := []) (t := "\threq, err := http.NewRequest(\"") rfl (by decide +kernel) s
theorem lit229 (s : List Char) : grun (.code, s) "\", url, " = some (.str, s) :=
  grun_list (o := []) (o' := []) (t := "\", url, ") rfl (by decide +kernel) s
theorem lit230 (s : List Char) : grun (.str, s) "\", url, " = some (.code, s) :=
  grun_list (o := []) (o' := []) (t := "\", url, ") rfl (by decide +kernel) s
theorem lit231 (s : List Char) : grun (.code, s) "bytes.NewReader([]byte(Json(req." = some (.code, '(' :: '(' :: '(' :: s) :=
  grun_list (o := []) (o' := ['(', '(', '(']) (t := "bytes.NewReader([]byte(Json(req.") rfl (by decide +kernel) s
theorem lit232 (s : List Char) : grun (.code, '(' :: '(' :: '(' :: s) ")))" = some (.code, s) :=
  grun_list (o := ['(', '(', '(']) (o' := []) (t := ")))") rfl (by decide +kernel) s
theorem lit233 (s : List Char) : grun (.code, s) "\tif err != nil {\n\t\treturn nil, err\n\t}\n" = some (.code, s) :=
  grun_list (o := []) (o' := []) (t := "\tif err != nil {\n\t\treturn nil, err\n\t}\n") rfl (by decide +kernel) s
theorem lit234 (s : List Char) : grun (.line, '{' :: s) "\tif err != nil {\n\t\treturn nil, err\n\t}\n" = some (.code, s) :=
  grun_list (o := ['{']) (o' := []) (t := "\tif err != nil {\n\t\treturn nil, err\n\t}\n") rfl (by decide +kernel) s
theorem lit235 (s : List Char) : grun (.code, s) "\threq.Header.Add(\"Content-Type\", \"application/json\")" = some (.code, s) :=
  grun_list (o := []) (o' := []) (t := "\threq.Header.Add(\"Content-Type\", \"application/json\")") rfl (by decide +kernel) s
theorem lit236 (s : List Char) : grun (.code, s) "\tres, err := http.DefaultClient.Do(hreq)\n" = some (.code, s) :=
  grun_list (o := []) (o' := []) (t := "\tres, err := http.DefaultClient.Do(hreq)\n") rfl (by decide +kernel) s
theorem lit237 (s : List Char) : grun (.line, s) "\tres, err := http.DefaultClient.Do(hreq)\n" = some (.code, s) :=
  grun_list (o := []) (o' := []) (t := "\tres, err := http.DefaultClient.Do(hreq)\n") rfl (by decide +kernel) s
theorem lit238 (s : List Char) : grun (.code, s) "\tdefer res.Body.Close()\n" = some (.code, s) :=
  grun_list (o := []) (o' := []) (t := "\tdefer res.Body.Close()\n") rfl (by decide +kernel) s
theorem lit239 (s : List Char) : grun (.line, s) "\tdefer res.Body.Close()\n" = some (.code, s) :=
  grun_list (o := []) (o' := []) (t := "\tdefer res.Body.Close()\n") rfl (by decide +kernel) s
theorem lit240 (s : List Char) : grun (.code, s) "\tswitch res.StatusCode {\n" = some (.code, '{' :: s) :=
  grun_list (o := []) (o' := ['{']) (t := "\tswitch res.StatusCode {\n") rfl (by decide +kernel) s
theorem lit241 (s : List Char) : grun (.line, s) "\tswitch res.StatusCode {\n" = some (.code, s) :=
  grun_list (o := []) (o' := []) (t := "\tswitch res.StatusCode {\n") rfl (by decide +kernel) s
theorem lit242 (s : List Char) : grun (.code, s) "\tcase " = some (.code, s) :=
  grun_list (o := []) (o' := []) (t := "\tcase ") rfl (by decide +kernel) s
theorem lit243 (s : List Char) : grun (.code, s) ":\n" = some (.code, s) :=
  grun_list (o := []) (o' := []) (t := ":\n") rfl (by decide +kernel) s
theorem lit244 (s : List Char) : grun (.line, s) ":\n" = some (.code, s) :=
  grun_list (o := []) (o' := []) (t := ":\n") rfl (by decide +kernel) s
theorem lit245 (s : List Char) : grun (.code, s) "\t\tresponse := &" = some (.code, s) :=
  grun_list (o := []) (o' := []) (t := "\t\tresponse := &") rfl (by decide +kernel) s
theorem lit246 (s : List Char) : grun (.code, s) "Response{}\n" = some (.code, s) :=
  grun_list (o := []) (o' := []) (t := "Response{}\n") rfl (by decide +kernel) s
theorem lit247 (s : List Char) : grun (.line, s) "Response{}\n" = some (.code, s) :=
  grun_list (o := []) (o' := []) (t := "Response{}\n") rfl (by decide +kernel) s
theorem lit248 (s : List Char) : grun (.code, s) "\t\treturn response, nil\n" = some (.code, s) :=
  grun_list (o := []) (o' := []) (t := "\t\treturn response, nil\n") rfl (by decide +kernel) s
theorem lit249 (s : List Char) : grun (.line, s) "\t\treturn response, nil\n" = some (.code, s) :=
  grun_list (o := []) (o' := []) (t := "\t\treturn response, nil\n") rfl (by decide +kernel) s
theorem lit250 (s : List Char) : grun (.code, s) "\t\tvar errEntity " = some (.code, s) :=
  grun_list (o := []) (o' := []) (t := "\t\tvar errEntity ") rfl (by decide +kernel) s
theorem lit251 (s : List Char) : grun (.code, s) "\t\terr = json.NewDecoder(res.Body).Decode(&errEntity)\n" = some (.code, s) :=
  grun_list (o := []) (o' := []) (t := "\t\terr = json.NewDecoder(res.Body).Decode(&errEntity)\n") rfl (by decide +kernel) s
theorem lit252 (s : List Char) : grun (.line, s) "\t\terr = json.NewDecoder(res.Body).Decode(&errEntity)\n" = some (.code, s) :=
  grun_list (o := []) (o' := []) (t := "\t\terr = json.NewDecoder(res.Body).Decode(&errEntity)\n") rfl (by decide +kernel) s
theorem lit253 (s : List Char) : grun (.code, s) "\t\treturn nil, errEntity\n" = some (.code, s) :=
  grun_list (o := []) (o' := []) (t := "\t\treturn nil, errEntity\n") rfl (by decide +kernel) s
theorem lit254 (s : List Char) : grun (.line, s) "\t\treturn nil, errEntity\n" = some (.code, s) :=
  grun_list (o := []) (o' := []) (t := "\t\treturn nil, errEntity\n") rfl (by decide +kernel) s
theorem lit255 (s : List Char) : grun (.code, s) "   return nil,fmt.Errorf(\"whoops\")\n" = some (.code, s) :=
  grun_list (o := []) (o' := []) (t := "   return nil,fmt.Errorf(\"whoops\")\n") rfl (by decide +kernel) s
theorem lit256 (s : List Char) : grun (.line, s) "   return nil,fmt.Errorf(\"whoops\")\n" = some (.code, s) :=
  grun_list (o := []) (o' := []) (t := "   return nil,fmt.Errorf(\"whoops\")\n") rfl (by decide +kernel) s
theorem lit257 (s : List Char) : grun (.code, s) " struct {\n\tTarget string\n}\n\n" = some (.code, s) :=
  grun_list (o := []) (o' := []) (t := " struct {\n\tTarget string\n}\n\n") rfl (by decide +kernel) s
theorem lit258 (s : List Char) : grun (.line, '{' :: s) " struct {\n\tTarget string\n}\n\n" = some (.code, s) :=
  grun_list (o := ['{']) (o' := []) (t := " struct {\n\tTarget string\n}\n\n") rfl (by decide +kernel) s
theorem lit259 (s : List Char) : grun (.code, s) "func NewClient(target string) (*CrudlClient, error) {\n\treturn &CrudlClient{\n\t\tTarget: target,\n\t}, nil\n}\n" = some (.code, s) :=
  grun_list (o := []) (o' := []) (t := "func NewClient(target string) (*CrudlClient, error) {\n\treturn &CrudlClient{\n\t\tTarget: target,\n\t}, nil\n}\n") rfl (by decide +kernel) s
theorem lit260 (s : List Char) : grun (.line, '{' :: s) "func NewClient(target string) (*CrudlClient, error) {\n\treturn &CrudlClient{\n\t\tTarget: target,\n\t}, nil\n}\n" = some (.code, s) :=
  grun_list (o := ['{']) (o' := []) (t := "func NewClient(target string) (*CrudlClient, error) {\n\treturn &CrudlClient{\n\t\tTarget: target,\n\t}, nil\n}\n") rfl (by decide +kernel) s
theorem lit261 (s : List Char) : grun (.code, s) "\n\n" = some (.code, s) :=
  grun_list (o := []) (o' := []) (t := "\n\n") rfl (by decide +kernel) s
theorem lit262 (s : List Char) : grun (.line, s) "\n\n" = some (.code, s) :=
  grun_list (o := []) (o' := []) (t := "\n\n") rfl (by decide +kernel) s

set_option maxRecDepth 10000 in
/-- Scans a text that is put together of these pieces. -/
macro "glex" "[" ts:Lean.Parser.Tactic.simpLemma,* "]" : tactic => `(tactic| simp only [grun_append, grun_some,
    lit1, lit2, lit3, lit4, lit5, lit6, lit7, lit8, lit9, lit10, lit11, lit12, lit13, lit14, lit15, lit16, lit17, lit18, lit19, lit20, lit21,
    lit22, lit23, lit24, lit25, lit26, lit27, lit28, lit29, lit30, lit31, lit32, lit33, lit34, lit35, lit36, lit37, lit38, lit39, lit40,
    lit41, lit42, lit43, lit44, lit45, lit46, lit47, lit48, lit49, lit50, lit51, lit52, lit53, lit54, lit55, lit56, lit57, lit58, lit59,
    lit60, lit61, lit62, lit63, lit64, lit65, lit66, lit67, lit68, lit69, lit70, lit71, lit72, lit73, lit74, lit75, lit76, lit77, lit78,
    lit79, lit80, lit81, lit82, lit83, lit84, lit85, lit86, lit87, lit88, lit89, lit90, lit91, lit92, lit93, lit94, lit95, lit96, lit97,
    lit98, lit99, lit100, lit101, lit102, lit103, lit104, lit105, lit106, lit107, lit108, lit109, lit110, lit111, lit112, lit113, lit114,
    lit115, lit116, lit117, lit118, lit119, lit120, lit121, lit122, lit123, lit124, lit125, lit126, lit127, lit128, lit129, lit130, lit131,
    lit132, lit133, lit134, lit135, lit136, lit137, lit138, lit139, lit140, lit141, lit142, lit143, lit144, lit145, lit146, lit147, lit148,
    lit149, lit150, lit151, lit152, lit153, lit154, lit155, lit156, lit157, lit158, lit159, lit160, lit161, lit162, lit163, lit164, lit165,
    lit166, lit167, lit168, lit169, lit170, lit171, lit172, lit173, lit174, lit175, lit176, lit177, lit178, lit179, lit180, lit181, lit182,
    lit183, lit184, lit185, lit186, lit187, lit188, lit189, lit190, lit191, lit192, lit193, lit194, lit195, lit196, lit197, lit198, lit199,
    lit200, lit201, lit202, lit203, lit204, lit205, lit206, lit207, lit208, lit209, lit210, lit211, lit212, lit213, lit214, lit215, lit216,
    lit217, lit218, lit219, lit220, lit221, lit222, lit223, lit224, lit225, lit226, lit227, lit228, lit229, lit230, lit231, lit232, lit233,
    lit234, lit235, lit236, lit237, lit238, lit239, lit240, lit241, lit242, lit243, lit244, lit245, lit246, lit247, lit248, lit249, lit250,
    lit251, lit252, lit253, lit254, lit255, lit256, lit257, lit258, lit259, lit260, lit261, lit262
    , $ts,*])

theorem lit263 (s : List Char) : grun (.code, s) "// Decimal is a big.Float equivalent, but marshals to JSON as strings to preserve precision.\n" = some (.code, s) :=
  grun_list (o := []) (o' := []) (t := "// Decimal is a big.Float equivalent, but marshals to JSON as strings to preserve precision.\n") rfl (by decide +kernel) s
theorem lit264 (s : List Char) : grun (.code, s) "const DecimalPrecision = uint(250)\n" = some (.code, s) :=
  grun_list (o := []) (o' := []) (t := "const DecimalPrecision = uint(250)\n") rfl (by decide +kernel) s
theorem lit265 (s : List Char) : grun (.code, s) "type Decimal struct {\n" = some (.code, '{' :: s) :=
  grun_list (o := []) (o' := ['{']) (t := "type Decimal struct {\n") rfl (by decide +kernel) s
theorem lit266 (s : List Char) : grun (.code, s) "\tbig.Float\n" = some (.code, s) :=
  grun_list (o := []) (o' := []) (t := "\tbig.Float\n") rfl (by decide +kernel) s
theorem lit267 (s : List Char) : grun (.code, s) "// Encode as a string. Encoding as a JSON number works fine, but the Unbmarshal doesn't. If we use string as the representation in JSON, it works fine.\n" = some (.code, s) :=
  grun_list (o := []) (o' := []) (t := "// Encode as a string. Encoding as a JSON number works fine, but the Unbmarshal doesn't. If we use string as the representation in JSON, it works fine.\n") rfl (by decide +kernel) s
theorem lit268 (s : List Char) : grun (.code, s) "// What a shame.\n" = some (.code, s) :=
  grun_list (o := []) (o' := []) (t := "// What a shame.\n") rfl (by decide +kernel) s
theorem lit269 (s : List Char) : grun (.code, s) "func (d *Decimal) MarshalJSON() ([]byte, error) {\n" = some (.code, '{' :: s) :=
  grun_list (o := []) (o' := ['{']) (t := "func (d *Decimal) MarshalJSON() ([]byte, error) {\n") rfl (by decide +kernel) s
theorem lit270 (s : List Char) : grun (.code, s) "\trepr := d.Text('f', -1)\n" = some (.code, s) :=
  grun_list (o := []) (o' := []) (t := "\trepr := d.Text('f', -1)\n") rfl (by decide +kernel) s
theorem lit271 (s : List Char) : grun (.code, s) "\tstringRepr := \"\\\"\" + repr + \"\\\"\"\n" = some (.code, s) :=
  grun_list (o := []) (o' := []) (t := "\tstringRepr := \"\\\"\" + repr + \"\\\"\"\n") rfl (by decide +kernel) s
theorem lit272 (s : List Char) : grun (.code, s) "\treturn []byte(stringRepr), nil\n" = some (.code, s) :=
  grun_list (o := []) (o' := []) (t := "\treturn []byte(stringRepr), nil\n") rfl (by decide +kernel) s
theorem lit273 (s : List Char) : grun (.code, s) "func (d *Decimal) UnmarshalJSON(b []byte) error {\n" = some (.code, '{' :: s) :=
  grun_list (o := []) (o' := ['{']) (t := "func (d *Decimal) UnmarshalJSON(b []byte) error {\n") rfl (by decide +kernel) s
theorem lit274 (s : List Char) : grun (.code, s) "\tvar stringRepr string\n" = some (.code, s) :=
  grun_list (o := []) (o' := []) (t := "\tvar stringRepr string\n") rfl (by decide +kernel) s
theorem lit275 (s : List Char) : grun (.code, s) "\terr := json.Unmarshal(b, &stringRepr)\n" = some (.code, s) :=
  grun_list (o := []) (o' := []) (t := "\terr := json.Unmarshal(b, &stringRepr)\n") rfl (by decide +kernel) s
theorem lit276 (s : List Char) : grun (.code, s) "\tif err == nil {\n" = some (.code, '{' :: s) :=
  grun_list (o := []) (o' := ['{']) (t := "\tif err == nil {\n") rfl (by decide +kernel) s
theorem lit277 (s : List Char) : grun (.code, s) "\t\tvar num *Decimal\n" = some (.code, s) :=
  grun_list (o := []) (o' := []) (t := "\t\tvar num *Decimal\n") rfl (by decide +kernel) s
theorem lit278 (s : List Char) : grun (.code, s) "\t\tnum, err = ParseDecimal(stringRepr)\n" = some (.code, s) :=
  grun_list (o := []) (o' := []) (t := "\t\tnum, err = ParseDecimal(stringRepr)\n") rfl (by decide +kernel) s
theorem lit279 (s : List Char) : grun (.code, s) "\t\tif err == nil {\n" = some (.code, '{' :: s) :=
  grun_list (o := []) (o' := ['{']) (t := "\t\tif err == nil {\n") rfl (by decide +kernel) s
theorem lit280 (s : List Char) : grun (.code, s) "\t\t\t*d = *num\n" = some (.code, s) :=
  grun_list (o := []) (o' := []) (t := "\t\t\t*d = *num\n") rfl (by decide +kernel) s
theorem lit281 (s : List Char) : grun (.code, s) "\t\t\treturn nil\n" = some (.code, s) :=
  grun_list (o := []) (o' := []) (t := "\t\t\treturn nil\n") rfl (by decide +kernel) s
theorem lit282 (s : List Char) : grun (.code, s) "\t\tvar floatRepr float64\n" = some (.code, s) :=
  grun_list (o := []) (o' := []) (t := "\t\tvar floatRepr float64\n") rfl (by decide +kernel) s
theorem lit283 (s : List Char) : grun (.code, s) "\t\terr = json.Unmarshal(b, &floatRepr)\n" = some (.code, s) :=
  grun_list (o := []) (o' := []) (t := "\t\terr = json.Unmarshal(b, &floatRepr)\n") rfl (by decide +kernel) s
theorem lit284 (s : List Char) : grun (.code, s) "         *d = *NewDecimal(floatRepr)\n" = some (.code, s) :=
  grun_list (o := []) (o' := []) (t := "         *d = *NewDecimal(floatRepr)\n") rfl (by decide +kernel) s
theorem lit285 (s : List Char) : grun (.code, s) "\treturn fmt.Errorf(\"Bad Decimal number: %s\", string(b))\n" = some (.code, s) :=
  grun_list (o := []) (o' := []) (t := "\treturn fmt.Errorf(\"Bad Decimal number: %s\", string(b))\n") rfl (by decide +kernel) s
theorem lit286 (s : List Char) : grun (.code, s) "func DecimalFromString(text string) *Decimal {\n" = some (.code, '{' :: s) :=
  grun_list (o := []) (o' := ['{']) (t := "func DecimalFromString(text string) *Decimal {\n") rfl (by decide +kernel) s
theorem lit287 (s : List Char) : grun (.code, s) "   dec, err := ParseDecimal(text)\n" = some (.code, s) :=
  grun_list (o := []) (o' := []) (t := "   dec, err := ParseDecimal(text)\n") rfl (by decide +kernel) s
theorem lit288 (s : List Char) : grun (.code, s) "   if err != nil {\n" = some (.code, '{' :: s) :=
  grun_list (o := []) (o' := ['{']) (t := "   if err != nil {\n") rfl (by decide +kernel) s
theorem lit289 (s : List Char) : grun (.code, s) "\t\treturn nil\n" = some (.code, s) :=
  grun_list (o := []) (o' := []) (t := "\t\treturn nil\n") rfl (by decide +kernel) s
theorem lit290 (s : List Char) : grun (.code, s) "\treturn dec\n" = some (.code, s) :=
  grun_list (o := []) (o' := []) (t := "\treturn dec\n") rfl (by decide +kernel) s
theorem lit291 (s : List Char) : grun (.code, s) "func ParseDecimal(text string) (*Decimal, error) {\n" = some (.code, '{' :: s) :=
  grun_list (o := []) (o' := ['{']) (t := "func ParseDecimal(text string) (*Decimal, error) {\n") rfl (by decide +kernel) s
theorem lit292 (s : List Char) : grun (.code, s) "\tnum, _, err := big.ParseFloat(text, 10, DecimalPrecision, big.ToNearestEven)\n" = some (.code, s) :=
  grun_list (o := []) (o' := []) (t := "\tnum, _, err := big.ParseFloat(text, 10, DecimalPrecision, big.ToNearestEven)\n") rfl (by decide +kernel) s
theorem lit293 (s : List Char) : grun (.code, s) "\t\treturn nil, fmt.Errorf(\"Bad Decimal number: %s\", text)\n" = some (.code, s) :=
  grun_list (o := []) (o' := []) (t := "\t\treturn nil, fmt.Errorf(\"Bad Decimal number: %s\", text)\n") rfl (by decide +kernel) s
theorem lit294 (s : List Char) : grun (.code, s) "   return &Decimal{Float:*num}, nil\n" = some (.code, s) :=
  grun_list (o := []) (o' := []) (t := "   return &Decimal{Float:*num}, nil\n") rfl (by decide +kernel) s
theorem lit295 (s : List Char) : grun (.code, s) "func NewDecimal(val float64) *Decimal {\n" = some (.code, '{' :: s) :=
  grun_list (o := []) (o' := ['{']) (t := "func NewDecimal(val float64) *Decimal {\n") rfl (by decide +kernel) s
theorem lit296 (s : List Char) : grun (.code, s) "   return &Decimal{Float:*big.NewFloat(val)}\n" = some (.code, s) :=
  grun_list (o := []) (o' := []) (t := "   return &Decimal{Float:*big.NewFloat(val)}\n") rfl (by decide +kernel) s
theorem lit297 (s : List Char) : grun (.code, s) "func (d *Decimal) String() string {\n" = some (.code, '{' :: s) :=
  grun_list (o := []) (o' := ['{']) (t := "func (d *Decimal) String() string {\n") rfl (by decide +kernel) s
theorem lit298 (s : List Char) : grun (.code, s) "\treturn fmt.Sprint(d)\n" = some (.code, s) :=
  grun_list (o := []) (o' := []) (t := "\treturn fmt.Sprint(d)\n") rfl (by decide +kernel) s
theorem lit299 (s : List Char) : grun (.code, s) "func (d *Decimal) AsInt32() int32 {\n" = some (.code, '{' :: s) :=
  grun_list (o := []) (o' := ['{']) (t := "func (d *Decimal) AsInt32() int32 {\n") rfl (by decide +kernel) s
theorem lit300 (s : List Char) : grun (.code, s) "\tn := d.AsInt64()\n" = some (.code, s) :=
  grun_list (o := []) (o' := []) (t := "\tn := d.AsInt64()\n") rfl (by decide +kernel) s
theorem lit301 (s : List Char) : grun (.code, s) "\treturn int32(n)\n" = some (.code, s) :=
  grun_list (o := []) (o' := []) (t := "\treturn int32(n)\n") rfl (by decide +kernel) s
theorem lit302 (s : List Char) : grun (.code, s) "func (d *Decimal) AsInt64() int64 {\n" = some (.code, '{' :: s) :=
  grun_list (o := []) (o' := ['{']) (t := "func (d *Decimal) AsInt64() int64 {\n") rfl (by decide +kernel) s
theorem lit303 (s : List Char) : grun (.code, s) "\ti, _ := d.Int64()\n" = some (.code, s) :=
  grun_list (o := []) (o' := []) (t := "\ti, _ := d.Int64()\n") rfl (by decide +kernel) s
theorem lit304 (s : List Char) : grun (.code, s) "\treturn i\n" = some (.code, s) :=
  grun_list (o := []) (o' := []) (t := "\treturn i\n") rfl (by decide +kernel) s
theorem lit305 (s : List Char) : grun (.code, s) "func (d *Decimal) AsFloat64() float64 {\n" = some (.code, '{' :: s) :=
  grun_list (o := []) (o' := ['{']) (t := "func (d *Decimal) AsFloat64() float64 {\n") rfl (by decide +kernel) s
theorem lit306 (s : List Char) : grun (.code, s) "\tf, _ := d.Float64()\n" = some (.code, s) :=
  grun_list (o := []) (o' := []) (t := "\tf, _ := d.Float64()\n") rfl (by decide +kernel) s
theorem lit307 (s : List Char) : grun (.code, s) "\treturn f\n" = some (.code, s) :=
  grun_list (o := []) (o' := []) (t := "\treturn f\n") rfl (by decide +kernel) s
theorem lit308 (s : List Char) : grun (.code, s) "func (d *Decimal) AsBigFloat() *big.Float {\n" = some (.code, '{' :: s) :=
  grun_list (o := []) (o' := ['{']) (t := "func (d *Decimal) AsBigFloat() *big.Float {\n") rfl (by decide +kernel) s
theorem lit309 (s : List Char) : grun (.code, s) "   return &d.Float\n" = some (.code, s) :=
  grun_list (o := []) (o' := []) (t := "   return &d.Float\n") rfl (by decide +kernel) s
set_option maxRecDepth 10000 in
theorem goDecimalText_run (s : List Char) : grun (.code, s) goDecimalText = some (.code, s) := by
  unfold goDecimalText
  simp only [grun_append, grun_some,
    lit263, lit71, lit264, lit265, lit266, lit162, lit267, lit268, lit269, lit270, lit271, lit272, lit273, lit274, lit275, lit276, lit277,
    lit278, lit279, lit280, lit281, lit145, lit147, lit282, lit283, lit284, lit160, lit285, lit286, lit287, lit288, lit289, lit290, lit291,
    lit292, lit132, lit293, lit294, lit295, lit296, lit297, lit298, lit299, lit300, lit301, lit302, lit303, lit304, lit305, lit306, lit307,
    lit308, lit309
    ]

theorem lit310 (s : List Char) : grun (.code, s) "type Timestamp struct {\n" = some (.code, '{' :: s) :=
  grun_list (o := []) (o' := ['{']) (t := "type Timestamp struct {\n") rfl (by decide +kernel) s
theorem lit311 (s : List Char) : grun (.code, s) "\ttime.Time\n" = some (.code, s) :=
  grun_list (o := []) (o' := []) (t := "\ttime.Time\n") rfl (by decide +kernel) s
theorem lit312 (s : List Char) : grun (.code, s) "const RFC3339Milli = \"%d-%02d-%02dT%02d:%02d:%02d.%03dZ\"\n" = some (.code, s) :=
  grun_list (o := []) (o' := []) (t := "const RFC3339Milli = \"%d-%02d-%02dT%02d:%02d:%02d.%03dZ\"\n") rfl (by decide +kernel) s
theorem lit313 (s : List Char) : grun (.code, s) "func (ts Timestamp) String() string {\n" = some (.code, '{' :: s) :=
  grun_list (o := []) (o' := ['{']) (t := "func (ts Timestamp) String() string {\n") rfl (by decide +kernel) s
theorem lit314 (s : List Char) : grun (.code, s) "\tif ts.IsZero() {\n" = some (.code, '{' :: s) :=
  grun_list (o := []) (o' := ['{']) (t := "\tif ts.IsZero() {\n") rfl (by decide +kernel) s
theorem lit315 (s : List Char) : grun (.code, s) "\t\treturn \"\"\n" = some (.code, s) :=
  grun_list (o := []) (o' := []) (t := "\t\treturn \"\"\n") rfl (by decide +kernel) s
theorem lit316 (s : List Char) : grun (.code, s) "\treturn fmt.Sprintf(RFC3339Milli, ts.Year(), ts.Month(), ts.Day(), ts.Hour(), ts.Minute(), ts.Second(), ts.Nanosecond()/1000000)\n" = some (.code, s) :=
  grun_list (o := []) (o' := []) (t := "\treturn fmt.Sprintf(RFC3339Milli, ts.Year(), ts.Month(), ts.Day(), ts.Hour(), ts.Minute(), ts.Second(), ts.Nanosecond()/1000000)\n") rfl (by decide +kernel) s
theorem lit317 (s : List Char) : grun (.code, s) "func (ts Timestamp) MarshalJSON() ([]byte, error) {\n" = some (.code, '{' :: s) :=
  grun_list (o := []) (o' := ['{']) (t := "func (ts Timestamp) MarshalJSON() ([]byte, error) {\n") rfl (by decide +kernel) s
theorem lit318 (s : List Char) : grun (.code, s) "\treturn []byte(\"\\\"\" + ts.String() + \"\\\"\"), nil\n" = some (.code, s) :=
  grun_list (o := []) (o' := []) (t := "\treturn []byte(\"\\\"\" + ts.String() + \"\\\"\"), nil\n") rfl (by decide +kernel) s
theorem lit319 (s : List Char) : grun (.code, s) "func (ts *Timestamp) UnmarshalJSON(b []byte) error {\n" = some (.code, '{' :: s) :=
  grun_list (o := []) (o' := ['{']) (t := "func (ts *Timestamp) UnmarshalJSON(b []byte) error {\n") rfl (by decide +kernel) s
theorem lit320 (s : List Char) : grun (.code, s) "\tvar j string\n" = some (.code, s) :=
  grun_list (o := []) (o' := []) (t := "\tvar j string\n") rfl (by decide +kernel) s
theorem lit321 (s : List Char) : grun (.code, s) "\terr := json.Unmarshal(b, &j)\n" = some (.code, s) :=
  grun_list (o := []) (o' := []) (t := "\terr := json.Unmarshal(b, &j)\n") rfl (by decide +kernel) s
theorem lit322 (s : List Char) : grun (.code, s) "\t\tvar tsp Timestamp\n" = some (.code, s) :=
  grun_list (o := []) (o' := []) (t := "\t\tvar tsp Timestamp\n") rfl (by decide +kernel) s
theorem lit323 (s : List Char) : grun (.code, s) "\t\ttsp, err = ParseTimestamp(string(j))\n" = some (.code, s) :=
  grun_list (o := []) (o' := []) (t := "\t\ttsp, err = ParseTimestamp(string(j))\n") rfl (by decide +kernel) s
theorem lit324 (s : List Char) : grun (.code, s) "\t\t\t*ts = tsp\n" = some (.code, s) :=
  grun_list (o := []) (o' := []) (t := "\t\t\t*ts = tsp\n") rfl (by decide +kernel) s
theorem lit325 (s : List Char) : grun (.code, s) "\treturn err\n" = some (.code, s) :=
  grun_list (o := []) (o' := []) (t := "\treturn err\n") rfl (by decide +kernel) s
theorem lit326 (s : List Char) : grun (.code, s) "func TimestampFromString(s string) *Timestamp {\n" = some (.code, '{' :: s) :=
  grun_list (o := []) (o' := ['{']) (t := "func TimestampFromString(s string) *Timestamp {\n") rfl (by decide +kernel) s
theorem lit327 (s : List Char) : grun (.code, s) "\tts, err := ParseTimestamp(s)\n" = some (.code, s) :=
  grun_list (o := []) (o' := []) (t := "\tts, err := ParseTimestamp(s)\n") rfl (by decide +kernel) s
theorem lit328 (s : List Char) : grun (.code, s) "\treturn &ts\n" = some (.code, s) :=
  grun_list (o := []) (o' := []) (t := "\treturn &ts\n") rfl (by decide +kernel) s
theorem lit329 (s : List Char) : grun (.code, s) "func ParseTimestamp(s string) (Timestamp, error) {\n" = some (.code, '{' :: s) :=
  grun_list (o := []) (o' := ['{']) (t := "func ParseTimestamp(s string) (Timestamp, error) {\n") rfl (by decide +kernel) s
theorem lit330 (s : List Char) : grun (.code, s) "\tlayout := \"2006-01-02T15:04:05.999Z\" //derive this from the spec used for output?\n" = some (.code, s) :=
  grun_list (o := []) (o' := []) (t := "\tlayout := \"2006-01-02T15:04:05.999Z\" //derive this from the spec used for output?\n") rfl (by decide +kernel) s
theorem lit331 (s : List Char) : grun (.code, s) "\tt, e := time.Parse(layout, s)\n" = some (.code, s) :=
  grun_list (o := []) (o' := []) (t := "\tt, e := time.Parse(layout, s)\n") rfl (by decide +kernel) s
theorem lit332 (s : List Char) : grun (.code, s) "\tif e != nil {\n" = some (.code, '{' :: s) :=
  grun_list (o := []) (o' := ['{']) (t := "\tif e != nil {\n") rfl (by decide +kernel) s
theorem lit333 (s : List Char) : grun (.code, s) "\t\tif strings.HasSuffix(s, \"+00:00\") || strings.HasSuffix(s, \"-00:00\") {\n" = some (.code, '{' :: s) :=
  grun_list (o := []) (o' := ['{']) (t := "\t\tif strings.HasSuffix(s, \"+00:00\") || strings.HasSuffix(s, \"-00:00\") {\n") rfl (by decide +kernel) s
theorem lit334 (s : List Char) : grun (.code, s) "\t\t\tt, e = time.Parse(layout, s[:len(s)-6]+\"Z\")\n" = some (.code, s) :=
  grun_list (o := []) (o' := []) (t := "\t\t\tt, e = time.Parse(layout, s[:len(s)-6]+\"Z\")\n") rfl (by decide +kernel) s
theorem lit335 (s : List Char) : grun (.code, '{' :: s) "\t\t} else if strings.HasSuffix(s, \"+0000\") || strings.HasSuffix(s, \"-0000\") {\n" = some (.code, '{' :: s) :=
  grun_list (o := ['{']) (o' := ['{']) (t := "\t\t} else if strings.HasSuffix(s, \"+0000\") || strings.HasSuffix(s, \"-0000\") {\n") rfl (by decide +kernel) s
theorem lit336 (s : List Char) : grun (.code, s) "\t\t\tt, e = time.Parse(layout, s[:len(s)-5]+\"Z\")\n" = some (.code, s) :=
  grun_list (o := []) (o' := []) (t := "\t\t\tt, e = time.Parse(layout, s[:len(s)-5]+\"Z\")\n") rfl (by decide +kernel) s
theorem lit337 (s : List Char) : grun (.code, '{' :: s) "\t\t} else {\n" = some (.code, '{' :: s) :=
  grun_list (o := ['{']) (o' := ['{']) (t := "\t\t} else {\n") rfl (by decide +kernel) s
theorem lit338 (s : List Char) : grun (.code, s) "\t\t\tt, e = time.Parse(\"Mon, 02 Jan 2006 15:04:05 GMT\", s) //Last-Modified, etc are of in RFC2616 format\n" = some (.code, s) :=
  grun_list (o := []) (o' := []) (t := "\t\t\tt, e = time.Parse(\"Mon, 02 Jan 2006 15:04:05 GMT\", s) //Last-Modified, etc are of in RFC2616 format\n") rfl (by decide +kernel) s
theorem lit339 (s : List Char) : grun (.code, s) "\t\tif e != nil {\n" = some (.code, '{' :: s) :=
  grun_list (o := []) (o' := ['{']) (t := "\t\tif e != nil {\n") rfl (by decide +kernel) s
theorem lit340 (s : List Char) : grun (.code, s) "\t\t\tvar ts Timestamp\n" = some (.code, s) :=
  grun_list (o := []) (o' := []) (t := "\t\t\tvar ts Timestamp\n") rfl (by decide +kernel) s
theorem lit341 (s : List Char) : grun (.code, s) "\t\t\treturn ts, fmt.Errorf(\"Bad Timestamp: %q\", s)\n" = some (.code, s) :=
  grun_list (o := []) (o' := []) (t := "\t\t\treturn ts, fmt.Errorf(\"Bad Timestamp: %q\", s)\n") rfl (by decide +kernel) s
theorem lit342 (s : List Char) : grun (.code, s) "\treturn Timestamp{t}, nil\n" = some (.code, s) :=
  grun_list (o := []) (o' := []) (t := "\treturn Timestamp{t}, nil\n") rfl (by decide +kernel) s
set_option maxRecDepth 10000 in
theorem goTimestampText_run (s : List Char) : grun (.code, s) goTimestampText = some (.code, s) := by
  unfold goTimestampText
  simp only [grun_append, grun_some,
    lit71, lit310, lit311, lit162, lit312, lit313, lit314, lit315, lit160, lit316, lit317, lit318, lit319, lit320, lit321, lit276, lit322,
    lit323, lit279, lit324, lit145, lit325, lit326, lit327, lit288, lit289, lit328, lit329, lit330, lit331, lit332, lit333, lit334, lit335,
    lit336, lit337, lit338, lit339, lit340, lit341, lit342
    ]

theorem lit343 (s : List Char) : grun (.code, s) "func stringParam(val string, def string) string {\n" = some (.code, '{' :: s) :=
  grun_list (o := []) (o' := ['{']) (t := "func stringParam(val string, def string) string {\n") rfl (by decide +kernel) s
theorem lit344 (s : List Char) : grun (.code, s) "\tif val == \"\" {\n" = some (.code, '{' :: s) :=
  grun_list (o := []) (o' := ['{']) (t := "\tif val == \"\" {\n") rfl (by decide +kernel) s
theorem lit345 (s : List Char) : grun (.code, s) "\t\treturn def\n" = some (.code, s) :=
  grun_list (o := []) (o' := []) (t := "\t\treturn def\n") rfl (by decide +kernel) s
theorem lit346 (s : List Char) : grun (.code, s) "\treturn val\n" = some (.code, s) :=
  grun_list (o := []) (o' := []) (t := "\treturn val\n") rfl (by decide +kernel) s
theorem lit347 (s : List Char) : grun (.code, s) "func timestampParam(val string, def *Timestamp) *Timestamp {\n" = some (.code, '{' :: s) :=
  grun_list (o := []) (o' := ['{']) (t := "func timestampParam(val string, def *Timestamp) *Timestamp {\n") rfl (by decide +kernel) s
theorem lit348 (s : List Char) : grun (.code, s) "\tif val != \"\" {\n" = some (.code, '{' :: s) :=
  grun_list (o := []) (o' := ['{']) (t := "\tif val != \"\" {\n") rfl (by decide +kernel) s
theorem lit349 (s : List Char) : grun (.code, s) "\t\tts, err := ParseTimestamp(val)\n" = some (.code, s) :=
  grun_list (o := []) (o' := []) (t := "\t\tts, err := ParseTimestamp(val)\n") rfl (by decide +kernel) s
theorem lit350 (s : List Char) : grun (.code, s) "\t\t\treturn &ts\n" = some (.code, s) :=
  grun_list (o := []) (o' := []) (t := "\t\t\treturn &ts\n") rfl (by decide +kernel) s
theorem lit351 (s : List Char) : grun (.code, s) "\treturn def\n" = some (.code, s) :=
  grun_list (o := []) (o' := []) (t := "\treturn def\n") rfl (by decide +kernel) s
theorem lit352 (s : List Char) : grun (.code, s) "func intParam(val string, def int64) int64 {\n" = some (.code, '{' :: s) :=
  grun_list (o := []) (o' := ['{']) (t := "func intParam(val string, def int64) int64 {\n") rfl (by decide +kernel) s
theorem lit353 (s : List Char) : grun (.code, s) "\t\ti, err := strconv.ParseInt(val, 10, 64)\n" = some (.code, s) :=
  grun_list (o := []) (o' := []) (t := "\t\ti, err := strconv.ParseInt(val, 10, 64)\n") rfl (by decide +kernel) s
theorem lit354 (s : List Char) : grun (.code, s) "\t\t\treturn i\n" = some (.code, s) :=
  grun_list (o := []) (o' := []) (t := "\t\t\treturn i\n") rfl (by decide +kernel) s
theorem lit355 (s : List Char) : grun (.code, s) "func Pretty(obj interface{}) string {\n" = some (.code, '{' :: s) :=
  grun_list (o := []) (o' := ['{']) (t := "func Pretty(obj interface{}) string {\n") rfl (by decide +kernel) s
theorem lit356 (s : List Char) : grun (.code, s) "\tbuf := new(bytes.Buffer)\n" = some (.code, s) :=
  grun_list (o := []) (o' := []) (t := "\tbuf := new(bytes.Buffer)\n") rfl (by decide +kernel) s
theorem lit357 (s : List Char) : grun (.code, s) "\tenc := json.NewEncoder(buf)\n" = some (.code, s) :=
  grun_list (o := []) (o' := []) (t := "\tenc := json.NewEncoder(buf)\n") rfl (by decide +kernel) s
theorem lit358 (s : List Char) : grun (.code, s) "\tenc.SetEscapeHTML(false)\n" = some (.code, s) :=
  grun_list (o := []) (o' := []) (t := "\tenc.SetEscapeHTML(false)\n") rfl (by decide +kernel) s
theorem lit359 (s : List Char) : grun (.code, s) "\tenc.SetIndent(\"\", \"  \")\n" = some (.code, s) :=
  grun_list (o := []) (o' := []) (t := "\tenc.SetIndent(\"\", \"  \")\n") rfl (by decide +kernel) s
theorem lit360 (s : List Char) : grun (.code, s) "\tif err := enc.Encode(&obj); err != nil {\n" = some (.code, '{' :: s) :=
  grun_list (o := []) (o' := ['{']) (t := "\tif err := enc.Encode(&obj); err != nil {\n") rfl (by decide +kernel) s
theorem lit361 (s : List Char) : grun (.code, s) "\t\treturn fmt.Sprint(obj)\n" = some (.code, s) :=
  grun_list (o := []) (o' := []) (t := "\t\treturn fmt.Sprint(obj)\n") rfl (by decide +kernel) s
theorem lit362 (s : List Char) : grun (.code, s) "\treturn string(buf.String())\n" = some (.code, s) :=
  grun_list (o := []) (o' := []) (t := "\treturn string(buf.String())\n") rfl (by decide +kernel) s
theorem lit363 (s : List Char) : grun (.code, s) "func Json(obj interface{}) string {\n" = some (.code, '{' :: s) :=
  grun_list (o := []) (o' := ['{']) (t := "func Json(obj interface{}) string {\n") rfl (by decide +kernel) s
theorem lit364 (s : List Char) : grun (.code, s) "   buf := new(bytes.Buffer)\n" = some (.code, s) :=
  grun_list (o := []) (o' := []) (t := "   buf := new(bytes.Buffer)\n") rfl (by decide +kernel) s
theorem lit365 (s : List Char) : grun (.code, s) "   enc := json.NewEncoder(buf)\n" = some (.code, s) :=
  grun_list (o := []) (o' := []) (t := "   enc := json.NewEncoder(buf)\n") rfl (by decide +kernel) s
theorem lit366 (s : List Char) : grun (.code, s) "   enc.SetEscapeHTML(false)\n" = some (.code, s) :=
  grun_list (o := []) (o' := []) (t := "   enc.SetEscapeHTML(false)\n") rfl (by decide +kernel) s
theorem lit367 (s : List Char) : grun (.code, s) "   if err := enc.Encode(&obj); err != nil {\n" = some (.code, '{' :: s) :=
  grun_list (o := []) (o' := ['{']) (t := "   if err := enc.Encode(&obj); err != nil {\n") rfl (by decide +kernel) s
theorem lit368 (s : List Char) : grun (.code, s) "      return fmt.Sprint(obj)\n" = some (.code, s) :=
  grun_list (o := []) (o' := []) (t := "      return fmt.Sprint(obj)\n") rfl (by decide +kernel) s
theorem lit369 (s : List Char) : grun (.code, '{' :: s) "   }\n" = some (.code, s) :=
  grun_list (o := ['{']) (o' := []) (t := "   }\n") rfl (by decide +kernel) s
theorem lit370 (s : List Char) : grun (.code, s) "   return string(buf.String())\n" = some (.code, s) :=
  grun_list (o := []) (o' := []) (t := "   return string(buf.String())\n") rfl (by decide +kernel) s
theorem lit371 (s : List Char) : grun (.code, s) "func jsonResponse(w http.ResponseWriter, status int, entity interface{}) {\n" = some (.code, '{' :: s) :=
  grun_list (o := []) (o' := ['{']) (t := "func jsonResponse(w http.ResponseWriter, status int, entity interface{}) {\n") rfl (by decide +kernel) s
theorem lit372 (s : List Char) : grun (.code, s) "   w.Header().Set(\"Content-Type\", \"application/json\")\n" = some (.code, s) :=
  grun_list (o := []) (o' := []) (t := "   w.Header().Set(\"Content-Type\", \"application/json\")\n") rfl (by decide +kernel) s
theorem lit373 (s : List Char) : grun (.code, s) "\tw.WriteHeader(status)\n" = some (.code, s) :=
  grun_list (o := []) (o' := []) (t := "\tw.WriteHeader(status)\n") rfl (by decide +kernel) s
theorem lit374 (s : List Char) : grun (.code, s) "\tio.WriteString(w, Pretty(entity))\n" = some (.code, s) :=
  grun_list (o := []) (o' := []) (t := "\tio.WriteString(w, Pretty(entity))\n") rfl (by decide +kernel) s
theorem lit375 (s : List Char) : grun (.code, s) "func errorResponse(w http.ResponseWriter, status int, message string) {\n" = some (.code, '{' :: s) :=
  grun_list (o := []) (o' := ['{']) (t := "func errorResponse(w http.ResponseWriter, status int, message string) {\n") rfl (by decide +kernel) s
theorem lit376 (s : List Char) : grun (.code, s) "\tjsonResponse(w, status, &serverError{Error: http.StatusText(status), Message: message})\n" = some (.code, s) :=
  grun_list (o := []) (o' := []) (t := "\tjsonResponse(w, status, &serverError{Error: http.StatusText(status), Message: message})\n") rfl (by decide +kernel) s
theorem lit377 (s : List Char) : grun (.code, s) "func normalizeHeaderValue(key string, value interface{}) string {\n" = some (.code, '{' :: s) :=
  grun_list (o := []) (o' := ['{']) (t := "func normalizeHeaderValue(key string, value interface{}) string {\n") rfl (by decide +kernel) s
theorem lit378 (s : List Char) : grun (.code, s) "   switch strings.ToLower(key) {\n" = some (.code, '{' :: s) :=
  grun_list (o := []) (o' := ['{']) (t := "   switch strings.ToLower(key) {\n") rfl (by decide +kernel) s
theorem lit379 (s : List Char) : grun (.code, s) "   case \"last-modified\", \"date\", \"expires\":\n" = some (.code, s) :=
  grun_list (o := []) (o' := []) (t := "   case \"last-modified\", \"date\", \"expires\":\n") rfl (by decide +kernel) s
theorem lit380 (s : List Char) : grun (.code, s) "      switch ts := value.(type) {\n" = some (.code, '{' :: s) :=
  grun_list (o := []) (o' := ['{']) (t := "      switch ts := value.(type) {\n") rfl (by decide +kernel) s
theorem lit381 (s : List Char) : grun (.code, s) "      case time.Time:\n" = some (.code, s) :=
  grun_list (o := []) (o' := []) (t := "      case time.Time:\n") rfl (by decide +kernel) s
theorem lit382 (s : List Char) : grun (.code, s) "         return timestampRfc2616(ts)\n" = some (.code, s) :=
  grun_list (o := []) (o' := []) (t := "         return timestampRfc2616(ts)\n") rfl (by decide +kernel) s
theorem lit383 (s : List Char) : grun (.code, s) "      case *Timestamp:\n" = some (.code, s) :=
  grun_list (o := []) (o' := []) (t := "      case *Timestamp:\n") rfl (by decide +kernel) s
theorem lit384 (s : List Char) : grun (.code, s) "         return timestampRfc2616(ts.Time)\n" = some (.code, s) :=
  grun_list (o := []) (o' := []) (t := "         return timestampRfc2616(ts.Time)\n") rfl (by decide +kernel) s
theorem lit385 (s : List Char) : grun (.code, s) "      case string:\n" = some (.code, s) :=
  grun_list (o := []) (o' := []) (t := "      case string:\n") rfl (by decide +kernel) s
theorem lit386 (s : List Char) : grun (.code, s) "\t\t\treturn ts //just trust the application\n" = some (.code, s) :=
  grun_list (o := []) (o' := []) (t := "\t\t\treturn ts //just trust the application\n") rfl (by decide +kernel) s
theorem lit387 (s : List Char) : grun (.code, s) "      default:\n" = some (.code, s) :=
  grun_list (o := []) (o' := []) (t := "      default:\n") rfl (by decide +kernel) s
theorem lit388 (s : List Char) : grun (.code, s) "         fmt.Sprintf(\"Noncompliant value for %s header: %v\", key, ts)\n" = some (.code, s) :=
  grun_list (o := []) (o' := []) (t := "         fmt.Sprintf(\"Noncompliant value for %s header: %v\", key, ts)\n") rfl (by decide +kernel) s
theorem lit389 (s : List Char) : grun (.code, s) "\t\t\treturn fmt.Sprint(ts) //rather than fail\n" = some (.code, s) :=
  grun_list (o := []) (o' := []) (t := "\t\t\treturn fmt.Sprint(ts) //rather than fail\n") rfl (by decide +kernel) s
theorem lit390 (s : List Char) : grun (.code, '{' :: s) "      }\n" = some (.code, s) :=
  grun_list (o := ['{']) (o' := []) (t := "      }\n") rfl (by decide +kernel) s
theorem lit391 (s : List Char) : grun (.code, s) "   return fmt.Sprint(value)\n" = some (.code, s) :=
  grun_list (o := []) (o' := []) (t := "   return fmt.Sprint(value)\n") rfl (by decide +kernel) s
theorem lit392 (s : List Char) : grun (.code, s) "func intFromString(s string) int64 {\n" = some (.code, '{' :: s) :=
  grun_list (o := []) (o' := ['{']) (t := "func intFromString(s string) int64 {\n") rfl (by decide +kernel) s
theorem lit393 (s : List Char) : grun (.code, s) "\tvar n int64 = 0\n" = some (.code, s) :=
  grun_list (o := []) (o' := []) (t := "\tvar n int64 = 0\n") rfl (by decide +kernel) s
theorem lit394 (s : List Char) : grun (.code, s) "\t_, _ = fmt.Sscanf(s, \"%d\", &n)\n" = some (.code, s) :=
  grun_list (o := []) (o' := []) (t := "\t_, _ = fmt.Sscanf(s, \"%d\", &n)\n") rfl (by decide +kernel) s
theorem lit395 (s : List Char) : grun (.code, s) "\treturn n\n" = some (.code, s) :=
  grun_list (o := []) (o' := []) (t := "\treturn n\n") rfl (by decide +kernel) s
theorem lit396 (s : List Char) : grun (.code, s) "func floatFromString(s string) float64 {\n" = some (.code, '{' :: s) :=
  grun_list (o := []) (o' := ['{']) (t := "func floatFromString(s string) float64 {\n") rfl (by decide +kernel) s
theorem lit397 (s : List Char) : grun (.code, s) "\tvar n float64 = 0\n" = some (.code, s) :=
  grun_list (o := []) (o' := []) (t := "\tvar n float64 = 0\n") rfl (by decide +kernel) s
theorem lit398 (s : List Char) : grun (.code, s) "\t_, _ = fmt.Sscanf(s, \"%g\", &n)\n" = some (.code, s) :=
  grun_list (o := []) (o' := []) (t := "\t_, _ = fmt.Sscanf(s, \"%g\", &n)\n") rfl (by decide +kernel) s
theorem lit399 (s : List Char) : grun (.code, s) "func timestampRfc3339(ts time.Time) string {\n" = some (.code, '{' :: s) :=
  grun_list (o := []) (o' := ['{']) (t := "func timestampRfc3339(ts time.Time) string {\n") rfl (by decide +kernel) s
theorem lit400 (s : List Char) : grun (.code, s) "\treturn ts.UTC().Format(time.RFC3339Nano)\n" = some (.code, s) :=
  grun_list (o := []) (o' := []) (t := "\treturn ts.UTC().Format(time.RFC3339Nano)\n") rfl (by decide +kernel) s
theorem lit401 (s : List Char) : grun (.code, s) "func timestampRfc2616(ts time.Time) string {\t\n" = some (.code, '{' :: s) :=
  grun_list (o := []) (o' := ['{']) (t := "func timestampRfc2616(ts time.Time) string {\t\n") rfl (by decide +kernel) s
theorem lit402 (s : List Char) : grun (.code, s) "\t//i.e. \n" = some (.code, s) :=
  grun_list (o := []) (o' := []) (t := "\t//i.e. \n") rfl (by decide +kernel) s
theorem lit403 (s : List Char) : grun (.code, s) "\treturn ts.UTC().Format(http.TimeFormat)\n" = some (.code, s) :=
  grun_list (o := []) (o' := []) (t := "\treturn ts.UTC().Format(http.TimeFormat)\n") rfl (by decide +kernel) s
theorem lit404 (s : List Char) : grun (.code, s) "// FoldHttpHeaderName adapts to the Go misfeature: all headers are\n" = some (.code, s) :=
  grun_list (o := []) (o' := []) (t := "// FoldHttpHeaderName adapts to the Go misfeature: all headers are\n") rfl (by decide +kernel) s
theorem lit405 (s : List Char) : grun (.code, s) "// canonicalized as Capslike-This (for a header \"CapsLike-this\").\n" = some (.code, s) :=
  grun_list (o := []) (o' := []) (t := "// canonicalized as Capslike-This (for a header \"CapsLike-this\").\n") rfl (by decide +kernel) s
theorem lit406 (s : List Char) : grun (.code, s) "func FoldHttpHeaderName(name string) string {\n" = some (.code, '{' :: s) :=
  grun_list (o := []) (o' := ['{']) (t := "func FoldHttpHeaderName(name string) string {\n") rfl (by decide +kernel) s
theorem lit407 (s : List Char) : grun (.code, s) "\treturn http.CanonicalHeaderKey(name)\n" = some (.code, s) :=
  grun_list (o := []) (o' := []) (t := "\treturn http.CanonicalHeaderKey(name)\n") rfl (by decide +kernel) s
theorem lit408 (s : List Char) : grun (.code, s) "type serverError struct {\n" = some (.code, '{' :: s) :=
  grun_list (o := []) (o' := ['{']) (t := "type serverError struct {\n") rfl (by decide +kernel) s
theorem lit409 (s : List Char) : grun (.code, s) "   Error string  `json:\"error\"`\n" = some (.code, s) :=
  grun_list (o := []) (o' := []) (t := "   Error string  `json:\"error\"`\n") rfl (by decide +kernel) s
theorem lit410 (s : List Char) : grun (.code, s) "\tMessage string `json:\"message\"`\n" = some (.code, s) :=
  grun_list (o := []) (o' := []) (t := "\tMessage string `json:\"message\"`\n") rfl (by decide +kernel) s
theorem lit411 (s : List Char) : grun (.code, s) "func WebLog(h http.Handler) http.Handler {\n" = some (.code, '{' :: s) :=
  grun_list (o := []) (o' := ['{']) (t := "func WebLog(h http.Handler) http.Handler {\n") rfl (by decide +kernel) s
theorem lit412 (s : List Char) : grun (.code, s) "\treturn handlers.CombinedLoggingHandler(os.Stdout, h)\n" = some (.code, s) :=
  grun_list (o := []) (o' := []) (t := "\treturn handlers.CombinedLoggingHandler(os.Stdout, h)\n") rfl (by decide +kernel) s
theorem lit413 (s : List Char) : grun (.code, s) "func AllowCors(next http.Handler, host string) http.Handler {\n" = some (.code, '{' :: s) :=
  grun_list (o := []) (o' := ['{']) (t := "func AllowCors(next http.Handler, host string) http.Handler {\n") rfl (by decide +kernel) s
theorem lit414 (s : List Char) : grun (.code, s) "   return handlers.CORS(handlers.AllowedOrigins([]string{\"*\"}), handlers.AllowedHeaders([]string{\"Content-Type\", \"api_key\", \"Authorization\"}), handlers.AllowedMethods([]string{\"GET\",\"PUT\",\"DELETE\",\"POST\",\"OPTIONS\"}))(next)\n" = some (.code, s) :=
  grun_list (o := []) (o' := []) (t := "   return handlers.CORS(handlers.AllowedOrigins([]string{\"*\"}), handlers.AllowedHeaders([]string{\"Content-Type\", \"api_key\", \"Authorization\"}), handlers.AllowedMethods([]string{\"GET\",\"PUT\",\"DELETE\",\"POST\",\"OPTIONS\"}))(next)\n") rfl (by decide +kernel) s
set_option maxRecDepth 10000 in
theorem goServerTail_run (s : List Char) : grun (.code, s) goServerTail = some (.code, s) := by
  unfold goServerTail
  simp only [grun_append, grun_some,
    lit343, lit344, lit345, lit160, lit346, lit162, lit71, lit347, lit348, lit349, lit279, lit350, lit145, lit351, lit352, lit353, lit354,
    lit355, lit356, lit357, lit358, lit359, lit360, lit361, lit362, lit363, lit364, lit365, lit366, lit367, lit368, lit369, lit370, lit371,
    lit372, lit373, lit374, lit375, lit376, lit377, lit378, lit379, lit380, lit381, lit382, lit383, lit384, lit385, lit386, lit387, lit388,
    lit389, lit390, lit391, lit392, lit393, lit394, lit395, lit396, lit397, lit398, lit399, lit314, lit315, lit400, lit401, lit402, lit403,
    lit404, lit405, lit406, lit407, lit408, lit409, lit410, lit411, lit412, lit413, lit414
    ]

end Sadl.GoLits
