import Verif.Model.Command
/-
Specification vocabulary for the settings of a generator.
-/
namespace Sadl.Spec

/-- One option of the command line: `-x key` or `-x key=value`. -/
inductive Opt where
  | flag (k : String)
  | pair (k v : String)

/-- How the option is written. -/
def Opt.text : Opt → String
  | .flag k => k
  | .pair k v => k ++ "=" ++ v
/-- The setting it is about. -/
def Opt.key : Opt → String
  | .flag k => k
  | .pair k _ => k
/-- What it is set to. -/
def Opt.value : Opt → Value
  | .flag _ => .bool true
  | .pair _ v => .str v
/-- It can be written without ambiguity: there is no `=` but the one after the key. -/
def Opt.Clear : Opt → Prop
  | .flag k => '=' ∉ k.toList
  | .pair k v => '=' ∉ k.toList ∧ '=' ∉ v.toList

/-- The setting `k` in effect, if it is set: the last option about it wins; then the
flag `-f`, which stands for the setting `force-overwrite`; then the configuration. -/
def Setting (config : GoMap Value) (force : Bool) (opts : List Opt) (k : String) (v : Value) : Prop :=
  (∃ before o after, opts = before ++ o :: after ∧ o.key = k ∧ (∀ o' ∈ after, o'.key ≠ k) ∧ v = o.value) ∨
  ((∀ o ∈ opts, o.key ≠ k) ∧
    ((k = "force-overwrite" ∧ v = .bool force) ∨ (k ≠ "force-overwrite" ∧ mget config k = some v)))

end Sadl.Spec
