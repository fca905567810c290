import Verif.Lemmas.JsonText
/-
Documents printed by encoding/json are read back.
-/
namespace Sadl

mutual
/-- Every number of the document is the text of a JSON number. -/
def DocOk : JDoc → Prop
  | .num t => jNumber t = some (t, [])
  | .arr xs => DocsOk xs
  | .obj kvs => MembersOk kvs
  | _ => True
def DocsOk : List JDoc → Prop
  | [] => True
  | x :: r => DocOk x ∧ DocsOk r
def MembersOk : List (String × JDoc) → Prop
  | [] => True
  | (_, x) :: r => DocOk x ∧ MembersOk r
end

mutual
/-- How deep arrays and objects are nested. -/
def docDepth : JDoc → Nat
  | .arr xs => docsDepth xs + 1
  | .obj kvs => membersDepth kvs + 1
  | _ => 0
def docsDepth : List JDoc → Nat
  | [] => 0
  | x :: r => max (docDepth x) (docsDepth r)
def membersDepth : List (String × JDoc) → Nat
  | [] => 0
  | (_, x) :: r => max (docDepth x) (membersDepth r)
end

mutual
/-- Fuel that reading the document takes. -/
def docNeed : JDoc → Nat
  | .arr xs => docsNeed xs + 1
  | .obj kvs => membersNeed kvs + 1
  | _ => 1
def docsNeed : List JDoc → Nat
  | [] => 0
  | x :: r => 1 + docNeed x + docsNeed r
def membersNeed : List (String × JDoc) → Nat
  | [] => 0
  | (_, x) :: r => 1 + docNeed x + membersNeed r
end

variable {html : Bool}

theorem jSkip_newline (n : Nat) (s : List Char) : jSkip (jNewline n ++ s) = jSkip s := by
  have : ∀ k, jSkip (List.replicate k ' ' ++ s) = jSkip s := by
    intro k
    induction k with
    | zero => rfl
    | succ k ih => rw [List.replicate_succ, List.cons_append]; simpa [jSkip, jSpace] using ih
  have h1 := this (2 * n)
  rw [← h1]
  simp [jNewline, jSkip, jSpace]

theorem jSkip_of_head {c : Char} (s : List Char) (h : jSpace c = false) : jSkip (c :: s) = c :: s := by
  simp [jSkip, h]

theorem jValue_skip (fuel d : Nat) {s t : List Char} (h : jSkip s = jSkip t) : jValue fuel d s = jValue fuel d t := by
  cases fuel with
  | zero => rw [jValue, jValue]
  | succ n => rw [jValue, jValue, h]

theorem jItems_skip (fuel d : Nat) {s t : List Char} (h : jSkip s = jSkip t) : jItems fuel d s = jItems fuel d t := by
  cases fuel with
  | zero => rw [jItems, jItems]
  | succ n => rw [jItems, jItems, jValue_skip n d h]

theorem jMembers_skip (fuel d : Nat) {s t : List Char} (h : jSkip s = jSkip t) :
    jMembers fuel d s = jMembers fuel d t := by
  cases fuel with
  | zero => rw [jMembers, jMembers]
  | succ n => rw [jMembers, jMembers, h]

/-- What the text of a document starts with. -/
theorem jPretty_head (ind : Nat) (x : JDoc) (hx : DocOk x) : ∃ c r, jPretty html ind x = c :: r ∧
    jSpace c = false ∧ c ≠ ']' ∧ c ≠ '}' := by
  cases x with
  | null => exact ⟨'n', _, by rw [jPretty]; rfl, by decide, by decide, by decide⟩
  | bool b =>
    cases b
    · exact ⟨'f', _, by rw [jPretty]; rfl, by decide, by decide, by decide⟩
    · exact ⟨'t', _, by rw [jPretty]; rfl, by decide, by decide, by decide⟩
  | num t =>
    rw [DocOk] at hx
    obtain ⟨c, t', rfl, h⟩ := jNumber_head hx
    refine ⟨c, t', by rw [jPretty], ?_, ?_, ?_⟩
    · rcases h with rfl | h
      · decide
      · simp only [isDigitC, decide_eq_true_eq] at h
        simp only [jSpace, Bool.or_eq_false_iff, decide_eq_false_iff_not]
        refine ⟨⟨⟨?_, ?_⟩, ?_⟩, ?_⟩ <;> (rintro rfl; revert h; decide)
    all_goals
      rintro rfl
      revert h; decide
  | str s => exact ⟨'"', _, by rw [jPretty, jQuote]; rfl, by decide, by decide, by decide⟩
  | arr xs =>
    cases xs with
    | nil => exact ⟨'[', _, by rw [jPretty], by decide, by decide, by decide⟩
    | cons x r => exact ⟨'[', _, by rw [jPretty]; rfl, by decide, by decide, by decide⟩
  | obj kvs =>
    cases kvs with
    | nil => exact ⟨'{', _, by rw [jPretty], by decide, by decide, by decide⟩
    | cons p r => obtain ⟨k, x⟩ := p; exact ⟨'{', _, by rw [jPretty]; rfl, by decide, by decide, by decide⟩

theorem numStop_nil : NumStop [] := fun _ _ h => by cases h
theorem numStop_cons {c : Char} (r : List Char) (h : isDigitC c = false ∧ c ≠ '.' ∧ c ≠ 'e' ∧ c ≠ 'E') : NumStop (c :: r) := by
  intro c' r' e
  simp at e
  obtain ⟨rfl, -⟩ := e
  exact h

theorem numStop_items (ind : Nat) (xs : List JDoc) (rest : List Char) : NumStop (jPrettyItems html ind xs ++ rest) := by
  cases xs with
  | nil => rw [jPrettyItems]; exact numStop_cons _ (by decide)
  | cons x r => rw [jPrettyItems]; exact numStop_cons _ (by decide)

theorem numStop_members (ind : Nat) (xs : List (String × JDoc)) (rest : List Char) :
    NumStop (jPrettyMembers html ind xs ++ rest) := by
  cases xs with
  | nil => rw [jPrettyMembers]; exact numStop_cons _ (by decide)
  | cons p r => obtain ⟨k, x⟩ := p; rw [jPrettyMembers]; exact numStop_cons _ (by decide)

theorem jName_self (n r : List Char) : jName n (n ++ r) = some r := by
  induction n with
  | nil => rfl
  | cons c n ih => simp [jName, ih]

/-- `x` is read at the head of its text. -/
def JReads (html : Bool) (x : JDoc) : Prop := ∀ (ind fuel d : Nat) (rest : List Char), DocOk x → NumStop rest → docNeed x ≤ fuel →
  jValue fuel d (jPretty html ind x ++ rest) = if docDepth x ≤ d then some (x, rest) else none

/-- The items of an array from the second on. -/
def JReadsItems (html : Bool) (xs : List JDoc) : Prop := ∀ (ind fuel d : Nat) (x : JDoc) (rest : List Char), JReads html x → DocOk x → DocsOk xs →
  docNeed x + docsNeed xs + 1 ≤ fuel →
  jItems fuel d (jPretty html (ind + 1) x ++ (jPrettyItems html ind xs ++ rest)) =
    if max (docDepth x) (docsDepth xs) ≤ d then some (x :: xs, rest) else none

def JReadsMembers (html : Bool) (xs : List (String × JDoc)) : Prop := ∀ (ind fuel d : Nat) (k : String) (x : JDoc) (rest : List Char), JReads html x → DocOk x →
  MembersOk xs → docNeed x + membersNeed xs + 1 ≤ fuel →
  jMembers fuel d (jQuote html k.toList ++ ':' :: ' ' :: jPretty html (ind + 1) x ++ (jPrettyMembers html ind xs ++ rest)) =
    if max (docDepth x) (membersDepth xs) ≤ d then some ((k, x) :: xs, rest) else none

theorem jSkip_close (ind : Nat) (rest : List Char) : jSkip (jNewline ind ++ ']' :: rest) = ']' :: rest := by
  rw [jSkip_newline, jSkip_of_head _ (by decide)]

theorem readsItems_step {xs : List JDoc} (h : ∀ y r, xs = y :: r → JReads html y ∧ JReadsItems html r) : JReadsItems html xs := by
  intro ind fuel d x rest hx okx okxs hf
  cases fuel with
  | zero => omega
  | succ fuel =>
    rw [jItems, hx (ind + 1) fuel d _ okx (numStop_items ind xs rest) (by omega)]
    by_cases hd : docDepth x ≤ d
    · rw [if_pos hd]
      dsimp only
      cases xs with
      | nil =>
        rw [jPrettyItems, List.append_assoc, List.singleton_append, jSkip_close]
        simp [docsDepth, hd]
      | cons y r =>
        obtain ⟨hy, hr⟩ := h y r rfl
        rw [DocsOk] at okxs
        rw [docsNeed] at hf
        rw [jPrettyItems, List.append_assoc, List.append_assoc, List.cons_append, jSkip_of_head _ (by decide)]
        simp only [Char.reduceEq, if_true, if_false]
        have hsk : jSkip (jNewline (ind + 1) ++ (jPretty html (ind + 1) y ++ (jPrettyItems html ind r ++ rest))) =
            jSkip (jPretty html (ind + 1) y ++ (jPrettyItems html ind r ++ rest)) := jSkip_newline _ _
        rw [jItems_skip fuel d hsk, hr ind fuel d y rest hy okxs.1 okxs.2 (by omega), docsDepth]
        by_cases hd2 : max (docDepth y) (docsDepth r) ≤ d
        · rw [if_pos hd2, if_pos (by omega)]; rfl
        · rw [if_neg hd2, if_neg (by omega)]; rfl
    · rw [if_neg hd, if_neg (by omega)]

theorem jSkip_space (s : List Char) : jSkip (' ' :: s) = jSkip s := by simp [jSkip, jSpace]

theorem readsMembers_step {xs : List (String × JDoc)} (h : ∀ k y r, xs = (k, y) :: r → JReads html y ∧ JReadsMembers html r) :
    JReadsMembers html xs := by
  intro ind fuel d k x rest hx okx okxs hf
  cases fuel with
  | zero => omega
  | succ fuel =>
    rw [jMembers]
    have e0 : jQuote html k.toList ++ ':' :: ' ' :: jPretty html (ind + 1) x ++ (jPrettyMembers html ind xs ++ rest) =
        '"' :: (k.toList.flatMap (jEscape html) ++
          '"' :: (':' :: ' ' :: (jPretty html (ind + 1) x ++ (jPrettyMembers html ind xs ++ rest)))) := by
      simp [jQuote]
    rw [e0, jSkip_of_head _ (by decide)]
    simp only [Char.reduceEq, if_true, if_false]
    rw [jString_quoted]
    dsimp only
    rw [jSkip_of_head _ (by decide)]
    simp only [Char.reduceEq, if_true, if_false]
    rw [jValue_skip fuel d (jSkip_space _), hx (ind + 1) fuel d _ okx (numStop_members ind xs rest) (by omega)]
    by_cases hd : docDepth x ≤ d
    · rw [if_pos hd]
      dsimp only
      cases xs with
      | nil =>
        rw [jPrettyMembers, List.append_assoc, List.singleton_append, jSkip_newline, jSkip_of_head _ (by decide)]
        simp [membersDepth, hd]
      | cons p r =>
        obtain ⟨k2, y⟩ := p
        obtain ⟨hy, hr⟩ := h k2 y r rfl
        rw [MembersOk] at okxs
        rw [membersNeed] at hf
        have e1 : jPrettyMembers html ind ((k2, y) :: r) ++ rest = ',' :: (jNewline (ind + 1) ++
            (jQuote html k2.toList ++ ':' :: ' ' :: jPretty html (ind + 1) y ++ (jPrettyMembers html ind r ++ rest))) := by
          rw [jPrettyMembers]; simp
        rw [e1, jSkip_of_head _ (by decide)]
        simp only [Char.reduceEq, if_true, if_false]
        rw [jMembers_skip fuel d (jSkip_newline _ _), hr ind fuel d k2 y rest hy okxs.1 okxs.2 (by omega), membersDepth]
        by_cases hd2 : max (docDepth y) (membersDepth r) ≤ d
        · rw [if_pos hd2, if_pos (by omega)]; simp
        · rw [if_neg hd2, if_neg (by omega)]; rfl
    · rw [if_neg hd, if_neg (by omega)]

theorem digit_not {c : Char} (h : c = '-' ∨ isDigitC c = true) :
    c ≠ '"' ∧ c ≠ 'n' ∧ c ≠ 't' ∧ c ≠ 'f' ∧ c ≠ '[' ∧ c ≠ '{' ∧ jSpace c = false := by
  rcases h with rfl | h
  · decide
  · refine ⟨?_, ?_, ?_, ?_, ?_, ?_, ?_⟩
    case refine_7 =>
      simp only [isDigitC, decide_eq_true_eq] at h
      simp only [jSpace, Bool.or_eq_false_iff, decide_eq_false_iff_not]
      refine ⟨⟨⟨?_, ?_⟩, ?_⟩, ?_⟩ <;> (rintro rfl; revert h; decide)
    all_goals (rintro rfl; revert h; decide)

theorem reads_arr {xs : List JDoc} (h : ∀ x r, xs = x :: r → JReads html x ∧ JReadsItems html r) : JReads html (.arr xs) := by
  intro ind fuel d rest ok _ hf
  rw [DocOk] at ok
  rw [docNeed] at hf
  rw [docDepth]
  cases fuel with
  | zero => omega
  | succ fuel =>
    cases xs with
    | nil =>
      rw [jPretty, jValue]
      simp only [List.cons_append, List.nil_append]
      rw [jSkip_of_head _ (by decide)]
      cases d with
      | zero => simp
      | succ d =>
        simp only [Char.reduceEq, if_false, if_true]
        rw [jSkip_of_head _ (by decide)]
        simp [docsDepth]
    | cons x r =>
      obtain ⟨hx, hr⟩ := h x r rfl
      rw [DocsOk] at ok
      rw [docsNeed] at hf
      have e1 : jPretty html ind (.arr (x :: r)) ++ rest = '[' :: (jNewline (ind + 1) ++ (jPretty html (ind + 1) x ++ (jPrettyItems html ind r ++ rest))) := by
        rw [jPretty]; simp
      rw [e1, jValue, jSkip_of_head _ (by decide)]
      simp only [Char.reduceEq, if_false, if_true]
      cases d with
      | zero => simp
      | succ d =>
        dsimp only
        rw [jSkip_newline]
        obtain ⟨c, t, ec, hs, hc1, hc2⟩ := jPretty_head (ind + 1) x ok.1
        have e2 : jPretty html (ind + 1) x ++ (jPrettyItems html ind r ++ rest) = c :: (t ++ (jPrettyItems html ind r ++ rest)) := by
          rw [ec, List.cons_append]
        have e3 : jSkip (jPretty html (ind + 1) x ++ (jPrettyItems html ind r ++ rest)) = c :: (t ++ (jPrettyItems html ind r ++ rest)) := by
          rw [e2, jSkip_of_head _ hs]
        rw [e3]
        simp only [hc1, if_false]
        rw [← e2, hr ind fuel d x rest hx ok.1 ok.2 (by omega), docsDepth]
        by_cases hd : max (docDepth x) (docsDepth r) ≤ d
        · rw [if_pos hd, if_pos (by omega)]; rfl
        · rw [if_neg hd, if_neg (by omega)]; rfl

theorem reads_obj {kvs : List (String × JDoc)} (h : ∀ k x r, kvs = (k, x) :: r → JReads html x ∧ JReadsMembers html r) :
    JReads html (.obj kvs) := by
  intro ind fuel d rest ok _ hf
  rw [DocOk] at ok
  rw [docNeed] at hf
  rw [docDepth]
  cases fuel with
  | zero => omega
  | succ fuel =>
    cases kvs with
    | nil =>
      rw [jPretty, jValue]
      simp only [List.cons_append, List.nil_append]
      rw [jSkip_of_head _ (by decide)]
      cases d with
      | zero => simp
      | succ d =>
        simp only [Char.reduceEq, if_false, if_true]
        rw [jSkip_of_head _ (by decide)]
        simp [membersDepth]
    | cons p r =>
      obtain ⟨k, x⟩ := p
      obtain ⟨hx, hr⟩ := h k x r rfl
      rw [MembersOk] at ok
      rw [membersNeed] at hf
      have e1 : jPretty html ind (.obj ((k, x) :: r)) ++ rest = '{' :: (jNewline (ind + 1) ++
          (jQuote html k.toList ++ ':' :: ' ' :: jPretty html (ind + 1) x ++ (jPrettyMembers html ind r ++ rest))) := by
        rw [jPretty]; simp
      rw [e1, jValue, jSkip_of_head _ (by decide)]
      simp only [Char.reduceEq, if_false, if_true]
      cases d with
      | zero => simp
      | succ d =>
        dsimp only
        rw [jSkip_newline]
        generalize hq : jQuote html k.toList ++ ':' :: ' ' :: jPretty html (ind + 1) x ++ (jPrettyMembers html ind r ++ rest) = q
        have hq' : ∃ t, q = '"' :: t := by rw [← hq, jQuote]; exact ⟨_, rfl⟩
        obtain ⟨t, ht⟩ := hq'
        have e2 : jSkip q = '"' :: t := by rw [ht, jSkip_of_head _ (by decide)]
        rw [e2]
        simp only [Char.reduceEq, if_false]
        rw [← ht, ← hq, hr ind fuel d k x rest hx ok.1 ok.2 (by omega), membersDepth]
        by_cases hd : max (docDepth x) (membersDepth r) ≤ d
        · rw [if_pos hd, if_pos (by omega)]; simp
        · rw [if_neg hd, if_neg (by omega)]; rfl

theorem reads_leaf {x : JDoc} (hx : (∀ xs, x ≠ .arr xs) ∧ ∀ kvs, x ≠ .obj kvs) : JReads html x := by
  intro ind fuel d rest ok stop hf
  cases fuel with
  | zero => cases x <;> simp [docNeed] at hf
  | succ fuel =>
    cases x with
    | null =>
      rw [jPretty, jValue]
      have : jSkip ("null".toList ++ rest) = 'n' :: ("ull".toList ++ rest) := jSkip_of_head _ (by decide)
      rw [this]
      simp only [Char.reduceEq, if_false, if_true]
      rw [jName_self]
      simp [docDepth]
    | bool b =>
      cases b
      · rw [jPretty, jValue]
        have : jSkip ("false".toList ++ rest) = 'f' :: ("alse".toList ++ rest) := jSkip_of_head _ (by decide)
        rw [this]
        simp only [Char.reduceEq, if_false, if_true]
        rw [jName_self]
        simp [docDepth]
      · rw [jPretty, jValue]
        have : jSkip ("true".toList ++ rest) = 't' :: ("rue".toList ++ rest) := jSkip_of_head _ (by decide)
        rw [this]
        simp only [Char.reduceEq, if_false, if_true]
        rw [jName_self]
        simp [docDepth]
    | num t =>
      rw [DocOk] at ok
      obtain ⟨c, t', rfl, h⟩ := jNumber_head ok
      obtain ⟨h1, h2, h3, h4, h5, h6, h7⟩ := digit_not h
      rw [jPretty, jValue, List.cons_append, jSkip_of_head _ h7]
      simp only [h1, h2, h3, h4, h5, h6, if_false]
      rw [← List.cons_append, jNumber_append stop ok]
      simp [docDepth]
    | str s =>
      have e : jPretty html ind (.str s) ++ rest = '"' :: (s.toList.flatMap (jEscape html) ++ '"' :: rest) := by
        rw [jPretty, jQuote]; simp
      rw [e, jValue, jSkip_of_head _ (by decide)]
      simp only [if_true]
      rw [jString_quoted]
      simp [docDepth]
    | arr xs => exact absurd rfl (hx.1 xs)
    | obj kvs => exact absurd rfl (hx.2 kvs)

mutual
theorem reads_doc : ∀ x : JDoc, JReads html x
  | .null => reads_leaf ⟨fun _ h => (by cases h), fun _ h => (by cases h)⟩
  | .bool _ => reads_leaf ⟨fun _ h => (by cases h), fun _ h => (by cases h)⟩
  | .num _ => reads_leaf ⟨fun _ h => (by cases h), fun _ h => (by cases h)⟩
  | .str _ => reads_leaf ⟨fun _ h => (by cases h), fun _ h => (by cases h)⟩
  | .arr [] => reads_arr (fun _ _ h => (by cases h))
  | .arr (x :: r) => reads_arr (fun x' r' h => (by cases h; exact ⟨reads_doc x, reads_items r⟩))
  | .obj [] => reads_obj (fun _ _ _ h => (by cases h))
  | .obj ((k, x) :: r) => reads_obj (fun k' x' r' h => (by cases h; exact ⟨reads_doc x, reads_members r⟩))
theorem reads_items : ∀ xs : List JDoc, JReadsItems html xs
  | [] => readsItems_step (fun _ _ h => (by cases h))
  | x :: r => readsItems_step (fun x' r' h => (by cases h; exact ⟨reads_doc x, reads_items r⟩))
theorem reads_members : ∀ xs : List (String × JDoc), JReadsMembers html xs
  | [] => readsMembers_step (fun _ _ _ h => (by cases h))
  | (k, x) :: r => readsMembers_step (fun k' x' r' h => (by cases h; exact ⟨reads_doc x, reads_members r⟩))
end

mutual
theorem docNeed_le (ind : Nat) : ∀ x : JDoc, DocOk x → docNeed x + 1 ≤ 2 * (jPretty html ind x).length
  | .null, _ => by simp [jPretty, docNeed]
  | .bool true, _ => by simp [jPretty, docNeed]
  | .bool false, _ => by simp [jPretty, docNeed]
  | .num t, h => by
    rw [DocOk] at h
    obtain ⟨c, t', rfl, _⟩ := jNumber_head h
    simp [jPretty, docNeed]
  | .str s, _ => by simp [jPretty, docNeed, jQuote]
  | .arr [], _ => by rw [jPretty, docNeed, docsNeed]; decide
  | .arr (x :: r), h => by
    rw [DocOk, DocsOk] at h
    have h1 := docNeed_le (ind + 1) x h.1
    have h2 := docsNeed_le ind r h.2
    rw [jPretty, docNeed, docsNeed]
    simp only [List.length_append, List.length_cons]
    omega
  | .obj [], _ => by rw [jPretty, docNeed, membersNeed]; decide
  | .obj ((k, x) :: r), h => by
    rw [DocOk, MembersOk] at h
    have h1 := docNeed_le (ind + 1) x h.1
    have h2 := membersNeed_le ind r h.2
    rw [jPretty, docNeed, membersNeed]
    simp only [List.length_append, List.length_cons]
    omega
theorem docsNeed_le (ind : Nat) : ∀ xs : List JDoc, DocsOk xs → docsNeed xs ≤ 2 * (jPrettyItems html ind xs).length
  | [], _ => by rw [docsNeed]; omega
  | x :: r, h => by
    rw [DocsOk] at h
    have h1 := docNeed_le (ind + 1) x h.1
    have h2 := docsNeed_le ind r h.2
    rw [jPrettyItems, docsNeed]
    simp only [List.length_append, List.length_cons]
    omega
theorem membersNeed_le (ind : Nat) : ∀ xs : List (String × JDoc), MembersOk xs → membersNeed xs ≤ 2 * (jPrettyMembers html ind xs).length
  | [], _ => by rw [membersNeed]; omega
  | (k, x) :: r, h => by
    rw [MembersOk] at h
    have h1 := docNeed_le (ind + 1) x h.1
    have h2 := membersNeed_le ind r h.2
    rw [jPrettyMembers, membersNeed]
    simp only [List.length_append, List.length_cons]
    omega
end

/-- A document that encoding/json prints is read back by encoding/json, unless it is nested
more than 10000 deep, in which case reading it is an error. -/
theorem jRead_pretty (x : JDoc) (h : DocOk x) :
    jRead (jPretty html 0 x ++ ['\n']) = if docDepth x ≤ jMaxDepth then some x else none := by
  have h1 := docNeed_le (html := html) 0 x h
  unfold jRead
  rw [reads_doc x 0 _ jMaxDepth ['\n'] h (numStop_cons _ (by decide)) (by simp only [List.length_append, List.length_cons]; omega)]
  by_cases hd : docDepth x ≤ jMaxDepth
  · rw [if_pos hd]; simp [jSkip, jSpace, hd]
  · rw [if_neg hd, if_neg hd]

/-- Different documents have different texts. -/
theorem jPretty_inj {x y : JDoc} (hx : DocOk x) (hy : DocOk y) (h : jPretty html 0 x = jPretty html 0 y) : x = y := by
  have h1 := reads_doc (html := html) x 0 (docNeed x + docNeed y) (docDepth x + docDepth y) [] hx numStop_nil (by omega)
  have h2 := reads_doc (html := html) y 0 (docNeed x + docNeed y) (docDepth x + docDepth y) [] hy numStop_nil (by omega)
  rw [if_pos (by omega)] at h1 h2
  rw [h, h2] at h1
  simp at h1
  exact h1.symm

end Sadl
