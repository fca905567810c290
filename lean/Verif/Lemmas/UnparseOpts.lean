import Verif.Lemmas.UnparseText
/-
Names, strings, numbers and option lists printed by the unparser.
-/
namespace Sadl.Props
open Sadl Sadl.Spec

theorem bare_name {pl : PrintLib} {s : String} (h : IsName s) : bareToks pl s = [tSym s] := by
  unfold bareToks; exact if_pos h

theorem quote_plain {s : String} (h : IsPlain s) : goQuote s = s := by
  have e : s.toList.flatMap quoteCh = s.toList := by
    have : ∀ l : List Char, (∀ c ∈ l, c ≠ '"' ∧ c ≠ '\\' ∧ 32 ≤ c.toNat ∧ c.toNat ≠ 127) → l.flatMap quoteCh = l := by
      intro l
      induction l with
      | nil => intro _; rfl
      | cons c r ih =>
        intro hl
        obtain ⟨h1, h2, h3, h4⟩ := hl c (by simp)
        have n1 : c ≠ '\n' := by rintro rfl; exact absurd h3 (by decide)
        have n2 : c ≠ '\r' := by rintro rfl; exact absurd h3 (by decide)
        have n3 : c ≠ '\t' := by rintro rfl; exact absurd h3 (by decide)
        have hq : quoteCh c = [c] := by
          unfold quoteCh
          rw [if_neg h1, if_neg h2, if_neg n1, if_neg n2, if_neg n3, if_neg (by omega), if_neg (by omega), if_neg (by omega),
            if_neg (by omega), if_neg (by omega)]
        rw [List.flatMap_cons, hq, ih (fun x hx => hl x (by simp [hx]))]; rfl
    exact this _ h
  unfold goQuote
  rw [e, String.ofList_toList]

theorem quoted_plain {s : String} (h : IsPlain s) : quotedTok s = tStr s := by
  unfold quotedTok; rw [quote_plain h]

theorem plain_empty : IsPlain "" := by intro c hc; simp at hc

/-! ### Numbers -/

theorem decDigit_digitChar {d : Nat} (h : d < 10) : decDigit (digitChar d) = some d := by
  have : d = 0 ∨ d = 1 ∨ d = 2 ∨ d = 3 ∨ d = 4 ∨ d = 5 ∨ d = 6 ∨ d = 7 ∨ d = 8 ∨ d = 9 := by omega
  rcases this with rfl | rfl | rfl | rfl | rfl | rfl | rfl | rfl | rfl | rfl <;> decide

theorem decDigits_append : ∀ (l : List Char) (acc n : Nat) (r : List Char), decDigits acc l = some n →
    decDigits acc (l ++ r) = decDigits n r
  | [], acc, n, r, h => by simp [decDigits] at h; subst h; rfl
  | c :: l, acc, n, r, h => by
    rw [List.cons_append]
    simp only [decDigits] at h ⊢
    cases hd : decDigit c with
    | none => rw [hd] at h; simp at h
    | some d => rw [hd] at h; exact decDigits_append l _ n r h

theorem decDigits_decAux : ∀ (fuel n : Nat), n < fuel → decDigits 0 (decAux fuel n) = some n
  | 0, n, h => by omega
  | fuel + 1, n, h => by
    unfold decAux
    by_cases hn : n < 10
    · rw [if_pos hn]; simp [decDigits, decDigit_digitChar hn]
    · rw [if_neg hn, decDigits_append _ 0 (n / 10) _ (decDigits_decAux fuel (n / 10) (by omega))]
      simp only [decDigits, decDigit_digitChar (Nat.mod_lt n (by omega : 10 > 0))]
      congr 1; omega

theorem decAux_head : ∀ (fuel n : Nat), n < fuel → ∃ d r, d < 10 ∧ decAux fuel n = digitChar d :: r
  | 0, n, h => by omega
  | fuel + 1, n, h => by
    unfold decAux
    by_cases hn : n < 10
    · exact ⟨n, [], hn, by rw [if_pos hn]⟩
    · obtain ⟨d, r, hd, e⟩ := decAux_head fuel (n / 10) (by omega)
      exact ⟨d, r ++ [digitChar (n % 10)], hd, by rw [if_neg hn, e]; rfl⟩

theorem parseInt_intText {bits n : Nat} (h : (n : Int) < 2 ^ (bits - 1)) : parseInt bits (intText n) = some (n : Int) := by
  obtain ⟨d, r, hd, e⟩ := decAux_head (n + 1) n (by omega)
  have hv : decDigits 0 (digitChar d :: r) = some n := by rw [← e]; exact decDigits_decAux (n + 1) n (by omega)
  have h1 : digitChar d ≠ '-' ∧ digitChar d ≠ '+' := by
    have : d = 0 ∨ d = 1 ∨ d = 2 ∨ d = 3 ∨ d = 4 ∨ d = 5 ∨ d = 6 ∨ d = 7 ∨ d = 8 ∨ d = 9 := by omega
    rcases this with rfl | rfl | rfl | rfl | rfl | rfl | rfl | rfl | rfl | rfl <;> decide
  unfold parseInt intText showNat
  rw [String.toList_ofList, e]
  split
  · rename_i hh; injection hh with hh _; exact absurd hh h1.1
  · rename_i hh; injection hh with hh _; exact absurd hh h1.2
  · simp only [hv, Bool.false_eq_true, if_false]
    rw [if_pos ⟨by have : (0:Int) ≤ 2 ^ (bits - 1) := by positivity
                   omega, h⟩]

theorem intToks_nonneg {pl : PrintLib} {n : Int} (h : 0 ≤ n) : intToks pl n = [tNum (intText n.toNat)] := by
  obtain ⟨k, rfl⟩ := Int.eq_ofNat_of_zero_le h
  rfl

theorem parseInt_size {n : Int} (h : 0 ≤ n ∧ n < 2 ^ 63) : parseInt 64 (intText n.toNat) = some n := by
  have e : ((n.toNat : Nat) : Int) = n := Int.toNat_of_nonneg h.1
  have := parseInt_intText (bits := 64) (n := n.toNat) (by rw [e]; exact h.2)
  rwa [e] at this

theorem parseInt_status {n : Int} (h : StatusOk n) : parseInt 32 (intText n.toNat) = some n := by
  have e : ((n.toNat : Nat) : Int) = n := Int.toNat_of_nonneg h.1
  have := parseInt_intText (bits := 32) (n := n.toNat) (by rw [e]; exact h.2)
  rwa [e] at this

theorem decToks_ok {lib : PLib} {pl : PrintLib} {d : BigFloat} (h : NumberOk lib pl d) : decToks pl d = [tNum (pl.decText d)] := by
  obtain ⟨⟨m, e, rfl⟩, _⟩ := h; rfl

/-! ### Option lists -/

/-- Options, one after the other. -/
inductive OptChain (lib : PLib) (acc : List String) : List (List Token) → Options → Options → Prop
  | nil {o} : OptChain lib acc [] o o
  | cons {ts r o o1 o2} : OptItems lib (AnyLit lib) acc ts o o1 → OptChain lib acc r o1 o2 → OptChain lib acc (ts :: r) o o2

theorem OptChain.append {lib : PLib} {acc : List String} {a b : List (List Token)} {o o1 o2 : Options}
    (h : OptChain lib acc a o o1) (h' : OptChain lib acc b o1 o2) : OptChain lib acc (a ++ b) o o2 := by
  induction h with
  | nil => exact h'
  | cons h1 _ ih => exact .cons h1 (ih h')

theorem OptChain.one {lib : PLib} {acc : List String} {ts : List Token} {o o1 : Options}
    (h : OptItems lib (AnyLit lib) acc ts o o1) : OptChain lib acc [ts] o o1 := .cons h .nil

theorem OptChain.items {lib : PLib} {acc : List String} {a : List (List Token)} {o o1 : Options}
    (h : OptChain lib acc a o o1) : OptItems lib (AnyLit lib) acc (a.intersperse [tPunct .comma]).flatten o o1 := by
  induction h with
  | nil => exact .nil
  | @cons ts r o o1 o2 h1 h2 ih =>
    cases r with
    | nil =>
      cases h2
      simpa using h1
    | cons u r' =>
      have e : ((ts :: u :: r').intersperse [tPunct .comma]).flatten =
          ts ++ (⟨.comma, ""⟩ :: ((u :: r').intersperse [tPunct .comma]).flatten) := by
        simp [List.intersperse, tPunct]
      rw [e]
      exact OptItems.append h1 (.comma ih)

theorem OptChain.list {lib : PLib} {acc : List String} {a : List (List Token)} {o : Options}
    (h : OptChain lib acc a {} o) : OptList lib (AnyLit lib) acc (optToks a) o := by
  unfold optToks
  by_cases ha : a = []
  · subst ha; cases h; exact .inl ⟨rfl, rfl⟩
  · rw [if_neg ha]
    exact .inr ⟨"", "", _, rfl, h.items⟩

theorem chain_opt {lib : PLib} {acc : List String} {name : String} {args : List Token} {o o1 : Options}
    (hx : hasPrefix (lowerS name) "x_" = false) (hm : lowerS name ∈ acc) (h : OptArg lib (AnyLit lib) (lowerS name) args o o1) :
    OptChain lib acc [tSym name :: args] o o1 := by
  have := OptItems.opt (ts := []) hx hm h .nil
  rw [List.append_nil] at this
  exact .one this

theorem chain_required {lib : PLib} {acc : List String} {o : Options} (b : Bool) (hm : b = true → "required" ∈ acc) (ho : o.required = false) :
    OptChain lib acc (if b then [[tSym "required"]] else []) o { o with required := b } := by
  cases b with
  | false =>
    have : { o with required := false } = o := by cases o; simp_all
    rw [this]; exact .nil
  | true => exact chain_opt (by decide) (hm rfl) .required

theorem chain_pattern {lib : PLib} {acc : List String} {o : Options} {p : String} (hp : IsPlain p) (hm : "pattern" ∈ acc) (ho : o.pattern = "") :
    OptChain lib acc (patternOpts p) o { o with pattern := p } := by
  unfold patternOpts
  by_cases h : p = ""
  · subst h
    have : { o with pattern := "" } = o := by cases o; simp_all
    rw [this]; exact .nil
  · rw [if_neg h, quoted_plain hp]
    exact chain_opt (by decide) hm .pattern

theorem chain_sizes {lib : PLib} {pl : PrintLib} {acc : List String} {o : Options} {a b : Option Int} (ha : SizeOk a) (hb : SizeOk b)
    (h1 : "minsize" ∈ acc) (h2 : "maxsize" ∈ acc) (ho1 : o.minSize = none) (ho2 : o.maxSize = none) :
    OptChain lib acc (sizeOpts pl a b) o { o with minSize := a, maxSize := b } := by
  unfold sizeOpts
  refine OptChain.append (o1 := { o with minSize := a }) ?_ ?_
  · cases a with
    | none =>
      have : { o with minSize := none } = o := by cases o; simp_all
      rw [this]; exact .nil
    | some n =>
      have hn := ha n rfl
      simp only
      rw [intToks_nonneg hn.1]
      exact chain_opt (by decide) h1 (.minsize (parseInt_size hn))
  · cases b with
    | none =>
      have : { o with minSize := a, maxSize := none } = { o with minSize := a } := by cases o; simp_all
      rw [this]; exact .nil
    | some n =>
      have hn := hb n rfl
      simp only
      rw [intToks_nonneg hn.1]
      exact chain_opt (o := { o with minSize := a }) (by decide) h2 (.maxsize (parseInt_size hn))

theorem chain_bounds {lib : PLib} {pl : PrintLib} {acc : List String} {o : Options} {a b : Option BigFloat}
    (ha : ∀ d ∈ a, NumberOk lib pl d) (hb : ∀ d ∈ b, NumberOk lib pl d)
    (h1 : "min" ∈ acc) (h2 : "max" ∈ acc) (ho1 : o.min = none) (ho2 : o.max = none) :
    OptChain lib acc (boundOpts pl a b) o { o with min := a, max := b } := by
  unfold boundOpts
  refine OptChain.append (o1 := { o with min := a }) ?_ ?_
  · cases a with
    | none =>
      have : { o with min := none } = o := by cases o; simp_all
      rw [this]; exact .nil
    | some n =>
      have hn := ha n rfl
      simp only
      rw [decToks_ok hn]
      exact chain_opt (by decide) h1 (.min hn.2)
  · cases b with
    | none =>
      have : { o with min := a, max := none } = { o with min := a } := by cases o; simp_all
      rw [this]; exact .nil
    | some n =>
      have hn := hb n rfl
      simp only
      rw [decToks_ok hn]
      exact chain_opt (o := { o with min := a }) (by decide) h2 (.max hn.2)

theorem strItems_seps {d : List Token} (hd : ∀ t ∈ d, t.type = .comma ∨ t.type = .newline) {ts : List Token} {vs : List String}
    (h : StrItems ts vs) : StrItems (d ++ ts) vs := by
  induction d with
  | nil => exact h
  | cons t r ih => exact .sep (hd t (by simp)) (ih (fun x hx => hd x (by simp [hx])))

theorem strItems_list {d : List Token} (hd : ∀ t ∈ d, t.type = .comma ∨ t.type = .newline) {ts : List Token} (ht : StrItems ts [])
    {vs : List String} (hv : ∀ v ∈ vs, IsPlain v) :
    StrItems (((vs.map (fun s => [quotedTok s])).intersperse (tPunct .comma :: d)).flatten ++ ts) vs := by
  induction vs with
  | nil => exact ht
  | cons v r ih =>
    rw [List.map_cons, quoted_plain (hv v (by simp))]
    cases r with
    | nil => exact .item ht
    | cons v2 r2 =>
      have := ih (fun x hx => hv x (by simp [hx]))
      rw [List.map_cons] at this ⊢
      have e : (([tStr v] :: [quotedTok v2] :: r2.map (fun s => [quotedTok s])).intersperse (tPunct .comma :: d)).flatten ++ ts =
          tStr v :: tPunct .comma :: (d ++ ((([quotedTok v2] :: r2.map (fun s => [quotedTok s])).intersperse (tPunct .comma :: d)).flatten ++ ts)) := by
        simp [List.intersperse]
      rw [e]
      exact .item (.sep (.inl rfl) (strItems_seps hd this))

theorem chain_values {lib : PLib} {acc : List String} {o : Options} {vs : Option (List String)}
    (hv : ∀ l ∈ vs, l ≠ [] ∧ ∀ v ∈ l, IsPlain v) (hm : "values" ∈ acc) (ho : o.values = none) :
    OptChain lib acc (valuesOpts vs) o { o with values := vs } := by
  unfold valuesOpts
  cases vs with
  | none =>
    have : { o with values := none } = o := by cases o; simp_all
    rw [this]; exact .nil
  | some l =>
    obtain ⟨h1, h2⟩ := hv l rfl
    simp only
    have hd : ∀ t ∈ (if 5 < l.length then [tNl] else []), t.type = .comma ∨ t.type = .newline := by
      intro t ht; split_ifs at ht
      · simp [tNl] at ht; subst ht; exact .inr rfl
      · simp at ht
    have hs := strItems_seps hd (strItems_list hd (strItems_seps hd (.close (x := ""))) h2)
    have := OptArg.values (lib := lib) (L := AnyLit lib) (x := "") (y := "") (o := o) hs
    rw [if_neg h1] at this
    refine chain_opt (by decide) hm ?_
    have e : tPunct .equals :: stringListToks l = ⟨.equals, ""⟩ :: ⟨.openBracket, ""⟩ ::
        ((if 5 < l.length then [tNl] else []) ++ (((l.map (fun s => [quotedTok s])).intersperse
          (tPunct .comma :: (if 5 < l.length then [tNl] else []))).flatten ++
          ((if 5 < l.length then [tNl] else []) ++ [⟨.closeBracket, ""⟩]))) := by
      unfold stringListToks
      simp [tPunct]
    rw [e]
    exact this

theorem chain_annos {lib : PLib} {pl : PrintLib} {acc : List String} {o : Options} {m : GoMap String} (hm : AnnosOk m) (ho : o.annotations = []) :
    OptChain lib acc (annoOpts pl m) o { o with annotations := m } := by
  obtain ⟨hd, hi⟩ := hm
  have gen : ∀ (m pre : GoMap String), ((pre ++ m).map Prod.fst).Nodup → (∀ kv ∈ m, IsName kv.1 ∧ hasPrefix (lowerS kv.1) "x_" = true ∧ IsPlain kv.2) →
      OptChain lib acc (annoOpts pl m) { o with annotations := pre } { o with annotations := pre ++ m } := by
    intro m
    induction m with
    | nil => intro pre _ _; rw [List.append_nil]; exact .nil
    | cons kv r ih =>
      intro pre hn hi
      obtain ⟨h1, h2, h3⟩ := hi kv (by simp)
      have hk : kv.1 ∉ pre.map Prod.fst := by
        intro hc
        rw [List.map_append, List.nodup_append] at hn
        exact hn.2.2 _ hc _ (by simp) rfl
      have hs : mset pre kv.1 kv.2 = pre ++ [(kv.1, kv.2)] := mset_of_not_mem hk kv.2
      unfold annoOpts
      rw [List.map_cons, bare_name h1, quoted_plain h3]
      refine .cons (o1 := { o with annotations := pre ++ [kv] }) ?_ ?_
      · have := OptItems.anno (lib := lib) (L := AnyLit lib) (acc := acc) (x := "") (v := kv.2) (ts := []) (o := { o with annotations := pre }) h2 .nil
        simp only [hs] at this
        exact this
      · have := ih (pre ++ [kv]) (by simpa using hn) (fun x hx => hi x (by simp [hx]))
        simpa [annoOpts] using this
  have := gen m [] (by simpa [GoMap.Distinct] using hd) hi
  have e : { o with annotations := [] } = o := by cases o; simp_all
  rwa [e, List.nil_append] at this

theorem annotations_list {lib : PLib} {pl : PrintLib} {acc : List String} {m : GoMap String} (hm : AnnosOk m) :
    OptList lib (AnyLit lib) acc (annotationsToks pl m) { annotations := m } := (chain_annos hm rfl).list

end Sadl.Props
